import Verif.WordFloat

/-!
# The word-level loops compute residues of `baseLift`
-/

namespace MK.Word

open Finset

/-- `multSum`: the 128-bit accumulator does not overflow, the final additions do not wrap, and
the result is congruent to `(Σ y_i w_i)·2^-64 + vt[v]`. -/
theorem multSum_spec {p : ℕ} (hp : Modulus p) {n : ℕ} {Y W : ℕ → ℕ} {y w vt : List ℕ}
    (hy : ∀ i < n, y[i]? = some (Y i)) (hw : ∀ i < n, w[i]? = some (W i)) (hn : n ≤ 32)
    (hY : ∀ i < n, Y i < 2 ^ 61) (hW : ∀ i < n, W i < p) {v t : ℕ} (ht : vt[v]? = some t)
    (htp : t < p) :
    ∃ r, multSum v y n p (MRedParams p) vt w = .ok r ∧
      (r : ZMod p) = ((∑ i ∈ range n, Y i * W i : ℕ) : ZMod p) * (montR : ZMod p)⁻¹ + t ∧
      r < (∑ i ∈ range n, Y i * W i) / montR + 2 * p ∧
      (∑ i ∈ range n, Y i * W i) / montR < 4 * p := by
  have hp61 := hp.lt
  have hsum : ∀ k ≤ n, ∑ i ∈ range k, Y i * W i ≤ k * (2 ^ 61 * (p - 1)) := by
    intro k hk
    calc ∑ i ∈ range k, Y i * W i ≤ ∑ _i ∈ range k, 2 ^ 61 * (p - 1) := by
          refine Finset.sum_le_sum fun i hi => ?_
          have hi' := lt_of_lt_of_le (mem_range.mp hi) hk
          exact Nat.mul_le_mul (hY i hi').le (by have := hW i hi'; omega)
      _ = k * (2 ^ 61 * (p - 1)) := by rw [Finset.sum_const, card_range, smul_eq_mul]
  have hsum2 : ∀ k ≤ n, ∑ i ∈ range k, Y i * W i < 4 * p * montR := by
    intro k hk
    refine lt_of_le_of_lt (hsum k hk) ?_
    have : k * (2 ^ 61 * (p - 1)) ≤ 32 * (2 ^ 61 * (p - 1)) := Nat.mul_le_mul_right _ (by omega)
    unfold montR
    have := hp.pos
    omega
  obtain ⟨r, hr, hr1, hr2⟩ := forEach_range n (multStep y w)
    (fun i r => r.1 < montR ∧ r.2 * montR + r.1 = ∑ k ∈ range i, Y k * W k) (0, 0)
    ⟨montR_pos, by simp⟩ (by
      rintro i ⟨lo, hi⟩ hin ⟨h1, h2⟩
      dsimp only at h1 h2
      have hlt := hsum2 (i + 1) hin
      rw [Finset.sum_range_succ, ← h2] at hlt
      have hb : hi + (Y i * W i / montR + (lo + Y i * W i % montR) / montR) < 4 * p := by
        by_contra hc
        push Not at hc
        have e1 := Nat.div_add_mod (Y i * W i) montR
        have e2 := Nat.div_add_mod (lo + Y i * W i % montR) montR
        have := Nat.mul_le_mul_right montR hc
        generalize (lo + Y i * W i % montR) / montR = c at *
        generalize (lo + Y i * W i % montR) % montR = r at *
        generalize Y i * W i / montR = a at *
        generalize Y i * W i % montR = b at *
        nlinarith
      have h4 : 4 * p < montR := by unfold montR; omega
      refine ⟨_, by
        simp only [multStep, idx_of_get? (hy i hin), idx_of_get? (hw i hin), Go.ok_bind]
        rfl, ?_⟩
      simp only [mul64, add64, Nat.add_zero]
      refine ⟨Nat.mod_lt _ montR_pos, ?_⟩
      rw [wadd_eq (a := Y i * W i / montR) (by omega), wadd_eq (by omega), Finset.sum_range_succ, ← h2]
      have e1 := Nat.div_add_mod (Y i * W i) montR
      have e2 := Nat.div_add_mod (lo + Y i * W i % montR) montR
      nlinarith)
  set S := ∑ i ∈ range n, Y i * W i with hS
  have hS4 : S / montR < 4 * p := by
    rw [Nat.div_lt_iff_lt_mul montR_pos]
    exact hsum2 n le_rfl
  have hhi : r.2 = S / montR := by
    rw [← hr2, Nat.mul_comm, Nat.mul_add_div montR_pos, Nat.div_eq_of_lt hr1, Nat.add_zero]
  obtain ⟨m1, m2⟩ := mont_core hp.coprime hp.pos r.2 r.1 hr1
  set h := (mul64 (wmul r.1 (MRedParams p)) p).1 with hh
  have h6 : 6 * p < montR := by unfold montR; omega
  have hbig : r.2 + p + t < montR := by
    rw [hhi]; generalize S / montR = c at *; omega
  have e1 : wadd (wsub r.2 h) p = r.2 + p - h :=
    wadd_wsub (by unfold montR; omega) (by omega) (by omega)
  refine ⟨r.2 + p - h + t, ?_, ?_, ?_, hS4⟩
  · simp only [multSum, hr, Go.ok_bind, idx_of_get? ht]
    rw [← hh, e1, wadd_eq (by omega)]
    rfl
  · rw [Nat.cast_add, Nat.cast_sub (by omega)]
    push_cast
    rw [ZMod.natCast_self, add_zero, m2, hr2]
  · rw [hhi]; omega

theorem foldl_range_succ {α : Type _} (f : α → ℕ → α) (a : α) (n : ℕ) :
    (List.range (n + 1)).foldl f a = f ((List.range n).foldl f a) n := by
  rw [List.range_succ, List.foldl_append]; rfl

theorem fquot_liftList (F : Fl) (M : ℕ → ℕ) (n : ℕ) (x : (i : ℕ) → ZMod (M i)) :
    ⌊(List.range n).foldl (fun vi i => fstep F vi (liftY M n x i) (M i)) 0⌋₊ =
      fquot F (liftList M n x) := by
  unfold fquot liftList
  rw [List.foldl_map]

/-- One word of the reconstruction: `MRed(x_i, (Q/q_i)^{-1}·2^64)` is `liftY`. -/
theorem liftY_word {S P : List ℕ} (hS : ∀ q ∈ S, Modulus q) (hn : S.Nodup) {i : ℕ}
    (hi : i < S.length) (x : ℕ → ℕ) (hx : x i < montR) :
    ∃ c, (basisextenderparameters S P).qoverqiinvqi[i]? = some c ∧
      MRed (x i) c (fam S i) (MRedParams (fam S i)) = liftY (fam S) S.length (fun i => (x i : ZMod _)) i := by
  obtain ⟨c, hc, hlt, hcast⟩ := qoverqiinvqi_spec (P := P) hS hn hi
  have hM : Modulus (fam S i) := hS _ (fam_mem hi)
  refine ⟨c, hc, ?_⟩
  obtain ⟨r1, r2⟩ := MRed_spec (x := x i) (y := c) hM.coprime hM.two_le hM.pos (by
    have : x i * c ≤ montR * c := Nat.mul_le_mul_right _ hx.le
    have : montR * c < montR * fam S i := Nat.mul_lt_mul_of_pos_left hlt montR_pos
    nlinarith)
  have : NeZero (fam S i) := ⟨hM.pos.ne'⟩
  rw [liftY, ← ZMod.val_cast_of_lt r1, r2, hcast]
  congr 1
  rw [mul_assoc, mul_assoc, hM.inv, mul_one]

/-- `reconstructRNS` -/
theorem reconstructRNS_spec {F : Fl} {S P : List ℕ} (hS : ∀ q ∈ S, Modulus q) (hn : S.Nodup)
    {p y Q : List ℕ} {x : ℕ → ℕ} (hQ : ∀ i < S.length, Q[i]? = some (fam S i))
    (hp : ∀ i < S.length, p[i]? = some (x i)) (hx : ∀ i < S.length, x i < montR)
    (hy : S.length ≤ y.length) :
    ∃ y', reconstructRNS F S.length p y Q (Q.map MRedParams) (basisextenderparameters S P).qoverqiinvqi =
        .ok (y', fquot F (liftList (fam S) S.length fun i => (x i : ZMod _))) ∧
      ∀ i < S.length, y'[i]? = some (liftY (fam S) S.length (fun i => (x i : ZMod _)) i) := by
  obtain ⟨st, h1, h2, h3, h4⟩ := forEach_range S.length
    (reconStep F p Q (Q.map MRedParams) (basisextenderparameters S P).qoverqiinvqi)
    (fun i st => st.1.length = y.length ∧
      (∀ k < i, st.1[k]? = some (liftY (fam S) S.length (fun i => (x i : ZMod _)) k)) ∧
      st.2 = (List.range i).foldl (fun vi i => fstep F vi
        (liftY (fam S) S.length (fun i => (x i : ZMod _)) i) (fam S i)) 0) (y, 0)
    ⟨rfl, by omega, rfl⟩ (by
      rintro i ⟨y', v⟩ hi ⟨i1, i2, i3⟩
      dsimp only at i1 i2 i3
      obtain ⟨c, c1, c2⟩ := liftY_word (P := P) hS hn hi x (hx i hi)
      refine ⟨(y'.set i (liftY (fam S) S.length (fun i => (x i : ZMod _)) i),
        fstep F v (liftY (fam S) S.length (fun i => (x i : ZMod _)) i) (fam S i)), ?_, ?_, ?_, ?_⟩
      · simp only [reconStep, idx_of_get? c1, idx_of_get? (hQ i hi), idx_of_get? (hp i hi),
          idx_of_get? (show (Q.map MRedParams)[i]? = some (MRedParams (fam S i)) by
            rw [List.getElem?_map, hQ i hi]; rfl), Go.ok_bind, c2,
          upd_of_lt (show i < y'.length by omega)]
        rfl
      · simpa using i1
      · intro k hk
        dsimp only
        rcases Nat.lt_succ_iff_lt_or_eq.mp hk with h | rfl
        · rw [List.getElem?_set_ne (by omega)]; exact i2 k h
        · rw [List.getElem?_set_self (by omega)]
      · dsimp only
        rw [foldl_range_succ, ← i3])
  refine ⟨st.1, ?_, h3⟩
  simp only [reconstructRNS, h1, Go.ok_bind]
  rw [h4, fquot_liftList]
  rfl

theorem liftList_ok {S : List ℕ} (hS : ∀ q ∈ S, Modulus q) (x : (i : ℕ) → ZMod (fam S i)) :
    (liftList (fam S) S.length x).length = S.length ∧
      ∀ p ∈ liftList (fam S) S.length x, p.1 < p.2 := by
  constructor
  · simp [liftList]
  · intro p hp
    simp only [liftList, List.mem_map, List.mem_range] at hp
    obtain ⟨i, hi, rfl⟩ := hp
    exact liftY_lt (fam_pos hS) x i

/-- One target prime: table lookups succeed and the word is a residue of `baseLift`. -/
theorem target_spec {F : Fl} (hF : F.Ok) {S P : List ℕ} (hS : ∀ q ∈ S, Modulus q)
    (hP : ∀ p ∈ P, Modulus p) (h32 : S.length ≤ 32) (x : (i : ℕ) → ZMod (fam S i))
    {y : List ℕ} (hy : ∀ i < S.length, y[i]? = some (liftY (fam S) S.length x i)) {j : ℕ}
    (hj : j < P.length) :
    ∃ vt w r, (basisextenderparameters S P).vtimesqmodp[j]? = some vt ∧
      (basisextenderparameters S P).qoverqimodp[j]? = some w ∧
      multSum (fquot F (liftList (fam S) S.length x)) y S.length (fam P j) (MRedParams (fam P j)) vt w
        = .ok r ∧
      (r : ZMod (fam P j)) = ((baseLift (fquot F) (fam S) S.length x : ℤ) : ZMod (fam P j)) ∧
      r < 6 * fam P j ∧ (S.sum ≤ montR → r < 3 * fam P j) := by
  obtain ⟨vt, hvt, hvl, hv⟩ := vtimesqmodp_spec (Q := S) hP hj
  obtain ⟨w, hw, hwl, hw2⟩ := qoverqimodp_spec (Q := S) hS hP hj
  have hM : Modulus (fam P j) := hP _ (fam_mem hj)
  obtain ⟨l1, l2⟩ := liftList_ok hS x
  obtain ⟨t, ht, htp, htc⟩ := hv (fquot F (liftList (fam S) S.length x)) (by
    have := (C48_quotient hF _ (by rw [l1]; exact h32) l2).2.1
    rw [l1] at this
    exact this)
  choose! W hW1 hW2 hW3 using hw2
  have hY : ∀ i < S.length, liftY (fam S) S.length x i < fam S i := fun i _ => liftY_lt (fam_pos hS) x i
  obtain ⟨r, h1, h2, h3, h4⟩ := multSum_spec hM hy hW1 h32
    (fun i hi => (hY i hi).trans (hS _ (fam_mem hi)).lt) hW2 ht htp
  refine ⟨vt, w, r, hvt, hw, h1, ?_, by omega, fun hs => ?_⟩
  · rw [h2, htc]
    unfold baseLift
    push_cast
    rw [Finset.sum_mul, sub_eq_add_neg]
    congr 1
    refine Finset.sum_congr rfl fun i hi => ?_
    rw [hW3 i (mem_range.mp hi), mul_assoc, mul_assoc, hM.inv, mul_one]
  · have : (∑ i ∈ range S.length, liftY (fam S) S.length x i * W i) / montR < fam P j := by
      rw [Nat.div_lt_iff_lt_mul montR_pos]
      rcases Nat.eq_zero_or_pos S.length with h0 | h0
      · rw [h0, Finset.range_zero, Finset.sum_empty]
        exact Nat.mul_pos hM.pos montR_pos
      · calc ∑ i ∈ range S.length, liftY (fam S) S.length x i * W i
            < ∑ i ∈ range S.length, fam S i * fam P j := by
              refine Finset.sum_lt_sum_of_nonempty ⟨0, mem_range.mpr h0⟩ fun i hi => ?_
              have hi' := mem_range.mp hi
              exact Nat.mul_lt_mul_of_lt_of_le (hY i hi') (hW2 i hi').le hM.pos
          _ = S.sum * fam P j := by
              rw [← Finset.sum_mul, ← list_sum_range]
              congr 2
              refine List.ext_getElem (by simp) fun i h1 h2 => ?_
              simp [fam, h2]
          _ ≤ montR * fam P j := Nat.mul_le_mul_right _ hs
          _ = fam P j * montR := Nat.mul_comm _ _
    omega

/-- `modUpExact` -/
theorem modUpExact_spec {F : Fl} (hF : F.Ok) {S P : List ℕ} (hS : ∀ q ∈ S, Modulus q)
    (hn : S.Nodup) (hP : ∀ p ∈ P, Modulus p) (h32 : S.length ≤ 32) {y p1 p2 Q : List ℕ} {x : ℕ → ℕ}
    (hQ : ∀ i < S.length, Q[i]? = some (fam S i)) (hl : p1.length = S.length)
    (hp : ∀ i < S.length, p1[i]? = some (x i)) (hx : ∀ i < S.length, x i < montR)
    (hy : S.length ≤ y.length) (hp2 : p2.length ≤ P.length) :
    ∃ out, modUpExact F y p1 p2 Q P (basisextenderparameters S P) = .ok out ∧
      out.length = p2.length ∧ ∀ j < p2.length, ∃ r, out[j]? = some r ∧
        (r : ZMod (fam P j)) =
          ((baseLift (fquot F) (fam S) S.length (fun i => (x i : ZMod _)) : ℤ) : ZMod (fam P j)) ∧
        r < 6 * fam P j ∧ (S.sum ≤ montR → r < 3 * fam P j) := by
  obtain ⟨y', h1, h2⟩ := reconstructRNS_spec (F := F) (P := P) hS hn hQ hp hx hy
  obtain ⟨out, o1, o2, o3, _⟩ := forEach_set (n := p2.length)
    (body := modUpStep (fquot F (liftList (fam S) S.length fun i => (x i : ZMod _))) y' S.length P
      (basisextenderparameters S P))
    (P := fun j r => (r : ZMod (fam P j)) =
          ((baseLift (fquot F) (fam S) S.length (fun i => (x i : ZMod _)) : ℤ) : ZMod (fam P j)) ∧
        r < 6 * fam P j ∧ (S.sum ≤ montR → r < 3 * fam P j)) (l := p2) le_rfl (by
      intro j l' hj hl'
      obtain ⟨vt, w, r, t1, t2, t3, t4⟩ := target_spec hF hS hP h32 _ h2 (lt_of_lt_of_le hj hp2)
      refine ⟨r, ?_, t4⟩
      simp only [modUpStep, idx_of_get? (get?_fam (lt_of_lt_of_le hj hp2)), idx_of_get? t1,
        idx_of_get? t2, t3, Go.ok_bind, upd_of_lt (show j < l'.length by omega)])
  refine ⟨out, ?_, o2, o3⟩
  simp only [modUpExact, hl, h1, Go.ok_bind]
  exact o1

/-- The value of `baseLift` on the residues of `X < Q`: `X` plus at most one multiple of `Q`. -/
theorem baseLift_value {F : Fl} (hF : F.Ok) {S : List ℕ} (hS : ∀ q ∈ S, Modulus q) (hn : S.Nodup)
    (h32 : S.length ≤ 32) (x : (i : ℕ) → ZMod (fam S i)) {X : ℕ} (hX : X < S.prod)
    (hx : ∀ i < S.length, x i = (X : ZMod (fam S i))) :
    ∃ d : ℤ, baseLift (fquot F) (fam S) S.length x = X + d * S.prod ∧ |d| ≤ 1 ∧
      (S.prod ≤ X * 2 ^ 42 → X * 2 ^ 42 < S.prod * (2 ^ 42 - 1) → d = 0) := by
  obtain ⟨l1, l2⟩ := liftList_ok hS x
  obtain ⟨c1, -, c3⟩ := C48_quotient hF _ (by rw [l1]; exact h32) l2
  have hpos := fam_pos hS
  set l := liftList (fam S) S.length x with hl
  have hsum := liftList_sum (len := S.length) hpos x
  rw [← hl, ← prod_eq_baseProd] at hsum
  set T : ℤ := ∑ i ∈ range S.length, (liftY (fam S) S.length x i : ℤ) * baseQuot (fam S) S.length i with hT
  have hQ0 : 0 < S.prod := by rw [prod_eq_baseProd]; exact baseProd_pos hpos
  have hQq : (0 : ℚ) < S.prod := by exact_mod_cast hQ0
  -- `T` is congruent to `X` modulo every prime, hence modulo the product
  have hdvd : (S.prod : ℤ) ∣ T - X := by
    rw [prod_eq_baseProd, baseProd]
    push_cast
    refine Finset.prod_dvd_of_coprime (fun i hi j hj hij => ?_) fun i hi => ?_
    · exact (Nat.isCoprime_iff_coprime).mpr (fam_coprime hS hn i j
        (mem_range.mp hi) (mem_range.mp hj) hij)
    · have hi' := mem_range.mp hi
      have := baseLift_cast (M := fam S) (len := S.length) (fun _ => 0) hpos
        (fun i j hi hj hij => fam_coprime hS hn i j hi hj hij) x hi'
      simp only [baseLift, Nat.cast_zero, zero_mul, sub_zero] at this
      rw [← hT, hx i hi'] at this
      rw [← ZMod.intCast_zmod_eq_zero_iff_dvd, Int.cast_sub, this]
      simp
  obtain ⟨k, hk⟩ := hdvd
  have hTk : T = X + k * S.prod := by linarith
  have hk2 : ⌊equot l⌋ = k ∧ Int.fract (equot l) = X / S.prod := by
    have he : equot l = X / S.prod + k := by
      have : equot l * S.prod = T := hsum
      rw [hTk] at this
      rw [div_add' _ _ _ hQq.ne', eq_div_iff hQq.ne', this, Int.cast_add, Int.cast_mul,
        Int.cast_natCast, Int.cast_natCast]
    have h01 : (0 : ℚ) ≤ X / S.prod := by positivity
    have h02 : (X : ℚ) / S.prod < 1 := by rw [div_lt_one hQq]; exact_mod_cast hX
    have hf : ⌊equot l⌋ = k := by
      rw [he, Int.floor_add_intCast, Int.floor_eq_zero_iff.mpr ⟨h01, h02⟩, zero_add]
    refine ⟨hf, ?_⟩
    rw [Int.fract, hf, he, add_sub_cancel_right]
  refine ⟨k - (fquot F l : ℤ), ?_, ?_, fun a b => ?_⟩
  · unfold baseLift
    rw [← hT, ← hl, hTk, ← prod_eq_baseProd]
    ring
  · rw [abs_sub_comm, ← hk2.1]; exact c1
  · rw [hk2.1, hk2.2] at c3
    rw [c3, sub_self]
    · rw [div_le_div_iff₀ (by norm_num) hQq, one_mul]
      exact_mod_cast a
    · rw [div_lt_iff₀ hQq]
      have : (X : ℚ) * 2 ^ 42 < S.prod * (2 ^ 42 - 1) := by
        have h42 : ((2 ^ 42 - 1 : ℕ) : ℚ) = 2 ^ 42 - 1 := by norm_num
        rw [← h42]
        exact_mod_cast b
      have e : (1 - 1 / 2 ^ 42 : ℚ) * S.prod * 2 ^ 42 = S.prod * (2 ^ 42 - 1) := by
        field_simp
      nlinarith

end MK.Word
