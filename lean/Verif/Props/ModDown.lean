import Verif.Props.ModUp

/-!
# Properties of the basis reduction (C32, C33)
-/

namespace MK.Word

open Finset

variable {F : Fl} {Q P : List ℕ}

/-- One coefficient of `ModDown`: no wrap-around, and the result times the table's product is
the difference. -/
theorem modDown_word {q c D w x : ℕ} (hq : Modulus q) (hc : c < q)
    (hD : (c : ZMod q) * (D : ℕ) = montR) (hw : w < 6 * q) (hx : x ≤ 2 * q) :
    MRed (wsub (wadd w (wmul q 2)) x) (wsub q c) q (MRedParams q) < q ∧
      (MRed (wsub (wadd w (wmul q 2)) x) (wsub q c) q (MRedParams q) : ZMod q) * (D : ℕ) =
        (x : ZMod q) - w := by
  have h61 := hq.lt
  have h8 : 8 * q < montR := by unfold montR; omega
  have e1 : wmul q 2 = q * 2 := by unfold wmul; exact Nat.mod_eq_of_lt (by omega)
  have e2 : wadd w (q * 2) = w + q * 2 := wadd_eq (by omega)
  have e3 : wsub (w + q * 2) x = w + q * 2 - x := wsub_eq (by omega) (by omega)
  have e4 : wsub q c = q - c := wsub_eq hc.le (by omega)
  rw [e1, e2, e3, e4]
  obtain ⟨m1, m2⟩ := MRed_spec (x := w + q * 2 - x) (y := q - c) hq.coprime hq.two_le hq.pos (by
    calc (w + q * 2 - x) * (q - c) ≤ (w + q * 2 - x) * q := Nat.mul_le_mul_left _ (by omega)
      _ < montR * q := Nat.mul_lt_mul_of_pos_right (by omega) hq.pos
      _ = q * montR := Nat.mul_comm _ _)
  refine ⟨m1, ?_⟩
  rw [m2, Nat.cast_sub (by omega), Nat.cast_sub hc.le]
  push_cast
  rw [ZMod.natCast_self]
  linear_combination (((w : ZMod q) - x) * (-1) * (montR : ZMod q)⁻¹) * hD + ((x : ZMod q) - w) * hq.inv

/-- The loop shared by the `ModDown` functions. -/
theorem modDown_loop (hQ : ∀ q ∈ Q, Modulus q) {L : ℕ} (hL : L < Q.length) {row x w z : List ℕ}
    {D : ℕ} (hrow : ∀ i < Q.length, ∃ c, row[i]? = some c ∧ c < fam Q i ∧
      (c : ZMod (fam Q i)) * (D : ℕ) = montR) (hx : L < x.length) (hz : L < z.length)
    (hx2 : ∀ i q v, i ≤ L → Q[i]? = some q → x[i]? = some v → v ≤ 2 * q)
    {A : ℤ} (hw : ∀ i q, i ≤ L → Q[i]? = some q → ∃ v, w[i]? = some v ∧ (v : ℤ) ≡ A [ZMOD q] ∧ v < 6 * q)
    {B : ℤ} (hB : ∀ i q v, i ≤ L → Q[i]? = some q → x[i]? = some v → (v : ℤ) ≡ B [ZMOD q]) :
    ∃ out, forEach (List.range (L + 1)) (Extender.modDownStep Q row x w) z = .ok out ∧
      out.length = z.length ∧
      (∀ i q, i ≤ L → Q[i]? = some q → ∃ v, out[i]? = some v ∧ v < q ∧ (v : ℤ) * D ≡ B - A [ZMOD q]) ∧
      ∀ i, L < i → out[i]? = z[i]? := by
  obtain ⟨out, o1, o2, o3, o4⟩ := forEach_set (n := L + 1) (body := Extender.modDownStep Q row x w)
    (P := fun i v => v < fam Q i ∧ (v : ℤ) * D ≡ B - A [ZMOD fam Q i]) (l := z) hz (by
      intro i l' hi hl'
      have hiQ : i < Q.length := by omega
      obtain ⟨c, c1, c2, c3⟩ := hrow i hiQ
      obtain ⟨v, v1, v2, v3⟩ := hw i _ (by omega) (get?_fam hiQ)
      have hxi : x[i]? = some (x[i]'(by omega)) := List.getElem?_eq_getElem (by omega)
      have hx3 := hx2 i _ _ (by omega) (get?_fam hiQ) hxi
      have hx4 := hB i _ _ (by omega) (get?_fam hiQ) hxi
      obtain ⟨m1, m2⟩ := modDown_word (hQ _ (fam_mem hiQ)) c2 c3 v3 hx3
      refine ⟨_, by
        simp only [Extender.modDownStep, idx_of_get? (get?_fam hiQ), idx_of_get? c1,
          idx_of_get? hxi, idx_of_get? v1, Go.ok_bind, upd_of_lt (show i < l'.length by omega)], m1, ?_⟩
      rw [modEq_iff_cast] at v2 hx4 ⊢
      rw [Int.cast_mul, Int.cast_natCast, Int.cast_natCast, m2, Int.cast_sub, ← hx4, ← v2,
        Int.cast_natCast, Int.cast_natCast])
  refine ⟨out, o1, o2, fun i q hi hq => ?_, fun i hi => o4 i (by omega)⟩
  obtain ⟨v, v1, v2⟩ := o3 i (by omega)
  rw [get?_fam (by omega)] at hq
  rw [← Option.some.inj hq]
  exact ⟨v, v1, v2⟩

theorem take_prod_pos (hP : ∀ p ∈ P, Modulus p) (n : ℕ) : 0 < (P.take n).prod :=
  List.prod_pos fun p hp => (take_mem hP n p hp).pos

/-- The product of the special primes is invertible modulo every `q`. -/
theorem take_prod_coprime {q : ℕ} (hq : Modulus q) (hP : ∀ p ∈ P, Modulus p) (hd : q ∉ P) (n : ℕ) :
    (P.take n).prod.Coprime q := by
  refine Nat.Coprime.symm ((Nat.coprime_list_prod_right_iff).mpr fun p hp => ?_)
  have hpP := List.mem_of_mem_take hp
  refine (Nat.coprime_primes hq.prime (hP p hpP).prime).mpr ?_
  rintro rfl
  exact hd hpP

theorem cancel_modEq {q D : ℕ} (h : D.Coprime q) {a b : ℤ} (hab : a * D ≡ b * D [ZMOD q]) :
    a ≡ b [ZMOD q] := by
  rw [modEq_iff_cast] at hab ⊢
  push_cast at hab
  have := ZMod.coe_mul_inv_eq_one D h
  calc (a : ZMod q) = a * D * (D : ZMod q)⁻¹ := by rw [mul_assoc, this, mul_one]
    _ = b * D * (D : ZMod q)⁻¹ := by rw [hab]
    _ = b := by rw [mul_assoc, this, mul_one]

/-- Reduction of an arbitrary integer modulo the product, on the residues. -/
theorem residue_mod {x : ℤ} {levelP : ℕ} (hP : ∀ p ∈ P, Modulus p) {p1P : List ℕ}
    (hres : ∀ j p w, j ≤ levelP → P[j]? = some p → p1P[j]? = some w → (w : ℤ) ≡ x [ZMOD p]) :
    (x % ((P.take (levelP + 1)).prod : ℕ)).toNat < (P.take (levelP + 1)).prod ∧
    (((x % ((P.take (levelP + 1)).prod : ℕ)).toNat : ℕ) : ℤ) = x % ((P.take (levelP + 1)).prod : ℕ) ∧
    ∀ i p w, i ≤ levelP → P[i]? = some p → p1P[i]? = some w →
      w ≡ (x % ((P.take (levelP + 1)).prod : ℕ)).toNat [MOD p] := by
  have hpos := take_prod_pos hP (levelP + 1)
  have hz : (0 : ℤ) < ((P.take (levelP + 1)).prod : ℕ) := by exact_mod_cast hpos
  have h0 := Int.emod_nonneg x hz.ne'
  have h1 := Int.emod_lt_of_pos x hz
  have hc := Int.toNat_of_nonneg h0
  refine ⟨by omega, hc, fun i p w hi hp hw => ?_⟩
  have := hres i p w hi hp hw
  rw [← Int.natCast_modEq_iff, hc]
  refine this.trans ?_
  have hdvd : (p : ℤ) ∣ ((P.take (levelP + 1)).prod : ℕ) := by
    refine Int.natCast_dvd_natCast.mpr (List.dvd_prod ?_)
    refine List.mem_of_getElem? (i := i) ?_
    rw [List.getElem?_take_of_lt (by omega), hp]
  exact ((Int.mod_modEq x _).of_dvd hdvd).symm

/-- **C32.** `ModDownQPtoQ` on the residues of an integer `x` (the rows of `Q` at most `2q_i`, the
rows of `P` any words): no panic; every output word `i ≤ levelQ` is reduced and congruent to
`⌊x/P⌋ + d`, with one `d ∈ {-1, 0, 1}` for all `i`, and `d = 0` unless `x mod P` is within
`P/2^42` of `0` or of `P`. -/
theorem C32_ModDownQPtoQ (hF : F.Ok) (hQ : ∀ q ∈ Q, Modulus q) (hP : ∀ p ∈ P, Modulus p)
    (hn : P.Nodup) (hd : ∀ q ∈ Q, q ∉ P) {levelQ levelP : ℕ} (hlQ : levelQ < Q.length)
    (hlP : levelP < P.length) (h32 : levelP < 32) {y pool p1Q p1P p2Q : List ℕ}
    (hy : y.length = 32) (hpool : levelQ < pool.length) (hp1Q : levelQ < p1Q.length)
    (hp1P : levelP < p1P.length) (hp2Q : levelQ < p2Q.length) (hw : ∀ w ∈ p1P, w < 2 ^ 64) {x : ℤ}
    (hx2 : ∀ i q w, i ≤ levelQ → Q[i]? = some q → p1Q[i]? = some w → w ≤ 2 * q)
    (hxQ : ∀ i q w, i ≤ levelQ → Q[i]? = some q → p1Q[i]? = some w → (w : ℤ) ≡ x [ZMOD q])
    (hxP : ∀ j p w, j ≤ levelP → P[j]? = some p → p1P[j]? = some w → (w : ℤ) ≡ x [ZMOD p]) :
    ∃ (out : List ℕ) (d : ℤ),
      (newExtender Q P).ModDownQPtoQ F y pool levelQ levelP p1Q p1P p2Q = .ok out ∧
      out.length = p2Q.length ∧ |d| ≤ 1 ∧
      (∀ i q, i ≤ levelQ → Q[i]? = some q → ∃ w, out[i]? = some w ∧ w < q ∧
        (w : ℤ) ≡ x / ((P.take (levelP + 1)).prod : ℕ) + d [ZMOD q]) ∧
      (∀ i, levelQ < i → out[i]? = p2Q[i]?) ∧
      (((P.take (levelP + 1)).prod : ℕ) ≤ x % ((P.take (levelP + 1)).prod : ℕ) * 2 ^ 42 →
        x % ((P.take (levelP + 1)).prod : ℕ) * 2 ^ 42 < ((P.take (levelP + 1)).prod : ℕ) * (2 ^ 42 - 1) →
        d = 0) := by
  obtain ⟨r1, r2, r3⟩ := residue_mod (levelP := levelP) hP hxP
  set D := (P.take (levelP + 1)).prod with hD
  obtain ⟨up, d, u1, u2, u3, u4, -, u6⟩ := C31_ModUpPtoQ hF hQ hP hn hlP hlQ h32 hy hp1P hpool hw r1 r3
  obtain ⟨-, g⟩ := genModDownParams_spec hQ hP hd
  obtain ⟨row, g1, g2⟩ := g levelP hlP
  obtain ⟨out, o1, o2, o3, o4⟩ := modDown_loop hQ hlQ g2 hp1Q hp2Q hx2
    (fun i q hi hq => by
      obtain ⟨v, v1, v2, v3, -⟩ := u4 i q hi hq
      exact ⟨v, v1, v2, v3⟩) hxQ
  refine ⟨out, -d, ?_, o2, by rwa [abs_neg], fun i q hi hq => ?_, o4, fun a b => ?_⟩
  · simp only [Extender.ModDownQPtoQ, u1, Go.ok_bind,
      idx_of_get? (show (newExtender Q P).modDownparamsPtoQ[levelP]? = some row from g1)]
    exact o1
  · obtain ⟨v, v1, v2, v3⟩ := o3 i q hi hq
    refine ⟨v, v1, v2, ?_⟩
    have hqm := List.mem_of_getElem? hq
    refine cancel_modEq (take_prod_coprime (hQ q hqm) hP (hd q hqm) (levelP + 1)) ?_
    refine v3.trans ?_
    rw [r2, ← hD]
    have := Int.mul_ediv_add_emod x D
    have e : x - (x % D + d * D) = (x / D + -d) * D := by linarith
    rw [e]
  · rw [neg_eq_zero]
    refine u6 ?_ ?_
    · rw [← r2] at a; exact_mod_cast a
    · rw [← r2] at b
      have h42 : ((2 ^ 42 - 1 : ℕ) : ℤ) = 2 ^ 42 - 1 := by norm_num
      rw [← h42] at b
      exact_mod_cast b

/-- **C32**, the documented rounding is wrong: whenever the fractional part of `x/P` is at least
one half (and not within `2^-42` of one), no output word is a residue of `x/P` rounded to the
nearest integer. -/
theorem C32_not_rounded (hF : F.Ok) (hQ : ∀ q ∈ Q, Modulus q) (hP : ∀ p ∈ P, Modulus p)
    (hn : P.Nodup) (hd : ∀ q ∈ Q, q ∉ P) {levelQ levelP : ℕ} (hlQ : levelQ < Q.length)
    (hlP : levelP < P.length) (h32 : levelP < 32) {y pool p1Q p1P p2Q : List ℕ}
    (hy : y.length = 32) (hpool : levelQ < pool.length) (hp1Q : levelQ < p1Q.length)
    (hp1P : levelP < p1P.length) (hp2Q : levelQ < p2Q.length) (hw : ∀ w ∈ p1P, w < 2 ^ 64) {x : ℤ}
    (hx2 : ∀ i q w, i ≤ levelQ → Q[i]? = some q → p1Q[i]? = some w → w ≤ 2 * q)
    (hxQ : ∀ i q w, i ≤ levelQ → Q[i]? = some q → p1Q[i]? = some w → (w : ℤ) ≡ x [ZMOD q])
    (hxP : ∀ j p w, j ≤ levelP → P[j]? = some p → p1P[j]? = some w → (w : ℤ) ≡ x [ZMOD p])
    (hhalf : ((P.take (levelP + 1)).prod : ℕ) ≤ 2 * (x % ((P.take (levelP + 1)).prod : ℕ)))
    (hone : x % ((P.take (levelP + 1)).prod : ℕ) * 2 ^ 42 < ((P.take (levelP + 1)).prod : ℕ) * (2 ^ 42 - 1)) :
    ∃ out, (newExtender Q P).ModDownQPtoQ F y pool levelQ levelP p1Q p1P p2Q = .ok out ∧
      ∀ i q w, i ≤ levelQ → Q[i]? = some q → out[i]? = some w →
        ¬ (w : ℤ) ≡ round ((x : ℚ) / ((P.take (levelP + 1)).prod : ℕ)) [ZMOD q] := by
  obtain ⟨out, d, e, -, -, h, -, h0⟩ := C32_ModDownQPtoQ hF hQ hP hn hd hlQ hlP h32 hy hpool hp1Q hp1P
    hp2Q hw hx2 hxQ hxP
  have hpos : (0 : ℤ) < ((P.take (levelP + 1)).prod : ℕ) := by
    exact_mod_cast take_prod_pos hP (levelP + 1)
  set D := (P.take (levelP + 1)).prod with hD
  have hd0 : d = 0 := h0 (by omega) hone
  refine ⟨out, e, fun i q w hi hq hwo hbad => ?_⟩
  obtain ⟨w', w1, w2, w3⟩ := h i q hi hq
  rw [hwo] at w1
  obtain rfl := Option.some.inj w1
  have hround : round ((x : ℚ) / D) = x / D + 1 := by
    have hDq : (0 : ℚ) < (D : ℚ) := by exact_mod_cast hpos
    have hdm := Int.mul_ediv_add_emod x D
    have hlt := Int.emod_lt_of_pos x hpos
    rw [round_eq, Int.floor_eq_iff]
    have hx' : (x : ℚ) / D = (x / (D : ℤ) : ℤ) + ((x % (D : ℤ) : ℤ) : ℚ) / D := by
      rw [eq_comm, add_div' _ _ _ hDq.ne', div_left_inj' hDq.ne']
      have : ((x / (D : ℤ) : ℤ) : ℚ) * D + ((x % (D : ℤ) : ℤ) : ℚ) = ((D * (x / D) + x % D : ℤ) : ℚ) := by
        push_cast; ring
      rw [this, hdm]
    rw [hx']
    have a1 : (1 : ℚ) / 2 ≤ ((x % (D : ℤ) : ℤ) : ℚ) / D := by
      rw [div_le_div_iff₀ (by norm_num) hDq]
      have : ((D : ℤ) : ℚ) ≤ ((2 * (x % (D : ℤ)) : ℤ) : ℚ) := by exact_mod_cast hhalf
      push_cast at this ⊢
      linarith
    have a2 : ((x % (D : ℤ) : ℤ) : ℚ) / D < 1 := by
      rw [div_lt_one hDq]
      exact_mod_cast hlt
    constructor
    · push_cast at *; linarith
    · push_cast at *; linarith
  rw [hround] at hbad
  rw [hd0, add_zero] at w3
  have := (w3.symm.trans hbad).dvd
  rw [add_sub_cancel_left] at this
  have hq1 := (hQ q (List.mem_of_getElem? hq)).prime.one_lt
  have := Int.le_of_dvd one_pos this
  omega

/-- **C33**, the law that holds at every pair of levels: the output times `q_0⋯q_levelP` (the
product whose inverse the code takes) is `(⌊x/Q⌋ + d)·Q`, where `Q = q_0⋯q_levelQ`. -/
theorem C33_ModDownQPtoP_law (hF : F.Ok) (hQ : ∀ q ∈ Q, Modulus q) (hP : ∀ p ∈ P, Modulus p)
    (hn : Q.Nodup) (hd : ∀ q ∈ Q, q ∉ P) {levelQ levelP : ℕ} (hlQ : levelQ < Q.length)
    (hlP : levelP < P.length) (hlPQ : levelP < Q.length) (h32 : levelQ < 32)
    {y pool p1Q p1P p2P : List ℕ}
    (hy : y.length = 32) (hpool : levelP < pool.length) (hp1Q : levelQ < p1Q.length)
    (hp1P : levelP < p1P.length) (hp2P : levelP < p2P.length) (hw : ∀ w ∈ p1Q, w < 2 ^ 64) {x : ℤ}
    (hx2 : ∀ j p w, j ≤ levelP → P[j]? = some p → p1P[j]? = some w → w ≤ 2 * p)
    (hxQ : ∀ i q w, i ≤ levelQ → Q[i]? = some q → p1Q[i]? = some w → (w : ℤ) ≡ x [ZMOD q])
    (hxP : ∀ j p w, j ≤ levelP → P[j]? = some p → p1P[j]? = some w → (w : ℤ) ≡ x [ZMOD p]) :
    ∃ (out : List ℕ) (d : ℤ),
      (newExtender Q P).ModDownQPtoP F y pool levelQ levelP p1Q p1P p2P = .ok out ∧
      out.length = p2P.length ∧ |d| ≤ 1 ∧
      (∀ j p, j ≤ levelP → P[j]? = some p → ∃ w, out[j]? = some w ∧ w < p ∧
        (w : ℤ) * ((Q.take (levelP + 1)).prod : ℕ) ≡
          (x / ((Q.take (levelQ + 1)).prod : ℕ) + d) * ((Q.take (levelQ + 1)).prod : ℕ) [ZMOD p]) ∧
      (∀ j, levelP < j → out[j]? = p2P[j]?) ∧
      (((Q.take (levelQ + 1)).prod : ℕ) ≤ x % ((Q.take (levelQ + 1)).prod : ℕ) * 2 ^ 42 →
        x % ((Q.take (levelQ + 1)).prod : ℕ) * 2 ^ 42 < ((Q.take (levelQ + 1)).prod : ℕ) * (2 ^ 42 - 1) →
        d = 0) := by
  obtain ⟨r1, r2, r3⟩ := residue_mod (levelP := levelQ) hQ hxQ
  set D := (Q.take (levelQ + 1)).prod with hD
  obtain ⟨up, d, u1, u2, u3, u4, -, u6⟩ := C31_ModUpQtoP hF hQ hn hP hlQ hlP h32 hy hp1Q hpool hw r1 r3
  obtain ⟨-, g⟩ := genModDownParams_spec hP hQ (fun p hp hq => hd p hq hp)
  obtain ⟨row, g1, g2⟩ := g levelP hlPQ
  obtain ⟨out, o1, o2, o3, o4⟩ := modDown_loop hP hlP g2 hp1P hp2P hx2
    (fun i q hi hq => by
      obtain ⟨v, v1, v2, v3, -⟩ := u4 i q hi hq
      exact ⟨v, v1, v2, v3⟩) hxP
  refine ⟨out, -d, ?_, o2, by rwa [abs_neg], fun i q hi hq => ?_, o4, fun a b => ?_⟩
  · simp only [Extender.ModDownQPtoP, u1, Go.ok_bind,
      idx_of_get? (show (newExtender Q P).modDownparamsQtoP[levelP]? = some row from g1)]
    exact o1
  · obtain ⟨v, v1, v2, v3⟩ := o3 i q hi hq
    refine ⟨v, v1, v2, v3.trans ?_⟩
    rw [r2, ← hD]
    have := Int.mul_ediv_add_emod x D
    have e : x - (x % D + d * D) = (x / D + -d) * D := by linarith
    rw [e]
  · rw [neg_eq_zero]
    refine u6 ?_ ?_
    · rw [← r2] at a; exact_mod_cast a
    · rw [← r2] at b
      have h42 : ((2 ^ 42 - 1 : ℕ) : ℤ) = 2 ^ 42 - 1 := by norm_num
      rw [← h42] at b
      exact_mod_cast b

/-- **C33** (partial: only when `levelP = levelQ`; see `C33_wrong_table` and `C33_panics` for
the other cases).  `ModDownQPtoP` returns `⌊x/Q⌋ + d`, `d ∈ {-1, 0, 1}`, modulo every special
prime. -/
theorem C33_ModDownQPtoP_partial (hF : F.Ok) (hQ : ∀ q ∈ Q, Modulus q) (hP : ∀ p ∈ P, Modulus p)
    (hn : Q.Nodup) (hd : ∀ q ∈ Q, q ∉ P) {level : ℕ} (hlQ : level < Q.length)
    (hlP : level < P.length) (h32 : level < 32)
    {y pool p1Q p1P p2P : List ℕ}
    (hy : y.length = 32) (hpool : level < pool.length) (hp1Q : level < p1Q.length)
    (hp1P : level < p1P.length) (hp2P : level < p2P.length) (hw : ∀ w ∈ p1Q, w < 2 ^ 64) {x : ℤ}
    (hx2 : ∀ j p w, j ≤ level → P[j]? = some p → p1P[j]? = some w → w ≤ 2 * p)
    (hxQ : ∀ i q w, i ≤ level → Q[i]? = some q → p1Q[i]? = some w → (w : ℤ) ≡ x [ZMOD q])
    (hxP : ∀ j p w, j ≤ level → P[j]? = some p → p1P[j]? = some w → (w : ℤ) ≡ x [ZMOD p]) :
    ∃ (out : List ℕ) (d : ℤ),
      (newExtender Q P).ModDownQPtoP F y pool level level p1Q p1P p2P = .ok out ∧
      out.length = p2P.length ∧ |d| ≤ 1 ∧
      (∀ j p, j ≤ level → P[j]? = some p → ∃ w, out[j]? = some w ∧ w < p ∧
        (w : ℤ) ≡ x / ((Q.take (level + 1)).prod : ℕ) + d [ZMOD p]) ∧
      (∀ j, level < j → out[j]? = p2P[j]?) ∧
      (((Q.take (level + 1)).prod : ℕ) ≤ x % ((Q.take (level + 1)).prod : ℕ) * 2 ^ 42 →
        x % ((Q.take (level + 1)).prod : ℕ) * 2 ^ 42 < ((Q.take (level + 1)).prod : ℕ) * (2 ^ 42 - 1) →
        d = 0) := by
  obtain ⟨out, d, e, h1, h2, h3, h4⟩ := C33_ModDownQPtoP_law hF hQ hP hn hd hlQ hlP hlQ h32 hy hpool hp1Q
    hp1P hp2P hw hx2 hxQ hxP
  refine ⟨out, d, e, h1, h2, fun j p hj hp => ?_, h4⟩
  obtain ⟨w, w1, w2, w3⟩ := h3 j p hj hp
  have hpm := List.mem_of_getElem? hp
  exact ⟨w, w1, w2, cancel_modEq (take_prod_coprime (hP p hpm) hQ (fun h => hd p h hpm) (level + 1)) w3⟩

/-- **C33**, failure: the code takes the inverse of `q_0⋯q_levelP`, not of `q_0⋯q_levelQ`.  For
any valid moduli and levels such that these two products differ modulo some `p_j > 3`, there is
an input on which the output is neither `⌊x/Q⌋` nor off by one. -/
theorem C33_wrong_table (hF : F.Ok) (hQ : ∀ q ∈ Q, Modulus q) (hP : ∀ p ∈ P, Modulus p)
    (hn : Q.Nodup) (hd : ∀ q ∈ Q, q ∉ P) {levelQ levelP : ℕ} (hlQ : levelQ < Q.length)
    (hlP : levelP < P.length) (hlPQ : levelP < Q.length) (h32 : levelQ < 32)
    {j p : ℕ} (hj : j ≤ levelP) (hp : P[j]? = some p) (hp3 : 3 < p)
    (hne : ¬ (Q.take (levelP + 1)).prod ≡ (Q.take (levelQ + 1)).prod [MOD p])
    {y pool p2P : List ℕ} (hy : y.length = 32) (hpool : levelP < pool.length)
    (hp2P : levelP < p2P.length) :
    ∃ (x : ℤ) (p1Q p1P out : List ℕ),
      (∀ i q w : ℕ, Q[i]? = some q → p1Q[i]? = some w → w < q ∧ (w : ℤ) ≡ x [ZMOD q]) ∧
      (∀ i q w : ℕ, P[i]? = some q → p1P[i]? = some w → w < q ∧ (w : ℤ) ≡ x [ZMOD q]) ∧
      p1Q.length = Q.length ∧ p1P.length = P.length ∧
      (newExtender Q P).ModDownQPtoP F y pool levelQ levelP p1Q p1P p2P = .ok out ∧
      ∀ w, out[j]? = some w → ∀ d : ℤ, |d| ≤ 1 →
        ¬ (w : ℤ) ≡ x / ((Q.take (levelQ + 1)).prod : ℕ) + d [ZMOD p] := by
  have hpm := List.mem_of_getElem? hp
  have hpM := hP p hpm
  have : Fact p.Prime := ⟨hpM.prime⟩
  have hcD := take_prod_coprime (P := Q) hpM hQ (fun h => hd p h hpm) (levelQ + 1)
  have hcE := take_prod_coprime (P := Q) hpM hQ (fun h => hd p h hpm) (levelP + 1)
  set D := (Q.take (levelQ + 1)).prod with hD
  set E := (Q.take (levelP + 1)).prod with hE
  have hDpos : 0 < D := take_prod_pos hQ _
  have hE0 : (E : ZMod p) ≠ 0 := fun h => by
    have := ZMod.coe_mul_inv_eq_one E hcE
    rw [h, zero_mul] at this
    exact zero_ne_one this
  have hne' : (D : ZMod p) - E ≠ 0 := fun h => hne
    ((ZMod.natCast_eq_natCast_iff _ _ _).mp (sub_eq_zero.mp h).symm)
  -- choose `f` with `f·D = (f + 2)·E`
  set f : ℕ := ((2 : ZMod p) * E * ((D : ZMod p) - E)⁻¹).val with hf
  have hfc : (f : ZMod p) = 2 * E * ((D : ZMod p) - E)⁻¹ := by rw [hf, ZMod.natCast_zmod_val]
  have hfD : (f : ZMod p) * D = (f + 2) * E := by
    have : (f : ZMod p) * ((D : ZMod p) - E) = 2 * E := by
      rw [hfc, mul_assoc, inv_mul_cancel₀ hne', mul_one]
    linear_combination this
  set x : ℤ := f * D + (D / 2 : ℕ) with hx
  have hres : ∀ (M : List ℕ), (∀ m ∈ M, Modulus m) → ∀ i q w : ℕ, M[i]? = some q →
      (M.map fun q : ℕ => (x % (q : ℤ)).toNat)[i]? = some w → w < q ∧ (w : ℤ) ≡ x [ZMOD q] := by
    intro M hM i q w hq hw
    rw [List.getElem?_map, hq] at hw
    obtain rfl := Option.some.inj hw
    have hqp := (hM q (List.mem_of_getElem? hq)).pos
    have hz : (0 : ℤ) < q := by exact_mod_cast hqp
    have h0 := Int.emod_nonneg x hz.ne'
    have h1 := Int.emod_lt_of_pos x hz
    refine ⟨show (x % (q : ℤ)).toNat < q by omega, ?_⟩
    show (((x % (q : ℤ)).toNat : ℕ) : ℤ) ≡ x [ZMOD q]
    rw [Int.toNat_of_nonneg h0]
    exact Int.mod_modEq x q
  have hQr := hres Q hQ
  have hPr := hres P hP
  set p1Q := Q.map fun q : ℕ => (x % (q : ℤ)).toNat with hp1Q
  set p1P := P.map fun q : ℕ => (x % (q : ℤ)).toNat with hp1P
  have hlq : p1Q.length = Q.length := by rw [hp1Q, List.length_map]
  have hlp : p1P.length = P.length := by rw [hp1P, List.length_map]
  obtain ⟨out, d, e, -, -, h3, -, h0⟩ := C33_ModDownQPtoP_law (levelQ := levelQ) (levelP := levelP)
    (y := y) (pool := pool) (p1Q := p1Q) (p1P := p1P) (p2P := p2P) (x := x)
    hF hQ hP hn hd hlQ hlP hlPQ h32 hy hpool
    (by omega) (by omega) hp2P
    (fun w hw => by
      obtain ⟨i, hi⟩ := List.mem_iff_getElem?.mp hw
      have hil : i < Q.length := by
        have := (List.getElem?_eq_some_iff.mp hi).1; omega
      have := (hQr i _ w (get?_fam hil) hi).1
      have := (hQ _ (fam_mem hil)).lt
      omega)
    (fun i q w _ hq hw => by have := (hPr i q w hq hw).1; omega)
    (fun i q w _ hq hw => (hQr i q w hq hw).2)
    (fun i q w _ hq hw => (hPr i q w hq hw).2)
  rw [← hD] at h3 h0
  have hD2 : 2 ≤ D := by
    have h1 : fam Q 0 ∣ D := by
      refine List.dvd_prod ?_
      refine List.mem_of_getElem? (i := 0) ?_
      rw [List.getElem?_take_of_lt (by omega), get?_fam (by omega)]
    have := (hQ _ (fam_mem (show 0 < Q.length by omega))).prime.two_le
    have := Nat.le_of_dvd hDpos h1
    omega
  have hxm : x % D = (D / 2 : ℕ) := by
    rw [hx, Int.add_comm, Int.add_mul_emod_self_right]
    exact_mod_cast Nat.mod_eq_of_lt (by omega : D / 2 < D)
  have hxd : x / D = f := by
    have hz : (D : ℤ) ≠ 0 := by exact_mod_cast hDpos.ne'
    rw [hx, Int.add_comm, Int.add_mul_ediv_right _ _ hz]
    have : ((D / 2 : ℕ) : ℤ) / D = 0 := by
      exact_mod_cast Nat.div_eq_of_lt (by omega : D / 2 < D)
    rw [this, zero_add]
  have hd0 : d = 0 := by
    refine h0 ?_ ?_ <;> · rw [hxm]; omega
  refine ⟨x, p1Q, p1P, out, hQr, hPr, hlq, hlp, e, fun w hw d' hd' hbad => ?_⟩
  obtain ⟨w', w1, w2, w3⟩ := h3 j p hj hp
  rw [hw] at w1
  obtain rfl := Option.some.inj w1
  rw [hxd] at hbad w3
  rw [hd0, add_zero] at w3
  rw [modEq_iff_cast] at hbad w3
  simp only [Int.cast_natCast, Int.cast_add, Int.cast_mul] at hbad w3
  rw [hfD] at w3
  have hw' : (w : ZMod p) = f + 2 := mul_right_cancel₀ hE0 w3
  rw [hw'] at hbad
  have h2 : ((2 - d' : ℤ) : ZMod p) = 0 := by
    push_cast
    linear_combination hbad
  have := (ZMod.intCast_zmod_eq_zero_iff_dvd _ _).mp h2
  have hr := abs_le.mp hd'
  have := Int.le_of_dvd (by omega) this
  omega

/-- **C33**, failure: with at least as many special primes in use as there are ordinary primes,
the table lookup is out of range. -/
theorem C33_panics (hF : F.Ok) (hQ : ∀ q ∈ Q, Modulus q) (hP : ∀ p ∈ P, Modulus p)
    (hn : Q.Nodup) (hd : ∀ q ∈ Q, q ∉ P) {levelQ levelP : ℕ} (hlQ : levelQ < Q.length)
    (hlP : levelP < P.length) (hlPQ : Q.length ≤ levelP) (h32 : levelQ < 32)
    {y pool p1Q p1P p2P : List ℕ}
    (hy : y.length = 32) (hpool : levelP < pool.length) (hp1Q : levelQ < p1Q.length)
    (hw : ∀ w ∈ p1Q, w < 2 ^ 64) {x : ℤ}
    (hxQ : ∀ i q w, i ≤ levelQ → Q[i]? = some q → p1Q[i]? = some w → (w : ℤ) ≡ x [ZMOD q]) :
    (newExtender Q P).ModDownQPtoP F y pool levelQ levelP p1Q p1P p2P = .error .indexRange := by
  obtain ⟨r1, r2, r3⟩ := residue_mod (levelP := levelQ) hQ hxQ
  obtain ⟨up, d, u1, -⟩ := C31_ModUpQtoP hF hQ hn hP hlQ hlP h32 hy hp1Q hpool hw r1 r3
  have hl := (genModDownParams_spec hP hQ (fun p hp hq => hd p hq hp)).1
  simp only [Extender.ModDownQPtoP, u1, Go.ok_bind]
  rw [idx_panics (by show (genModDownParams P Q).length ≤ levelP; omega)]
  rfl

end MK.Word
