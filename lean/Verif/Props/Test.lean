import Verif.Test
import Verif.WordSpec
import Verif.Props.KeyGen
import Verif.Props.EncDec
import Verif.Props.KeySwitch
import Mathlib.Data.Nat.Size

/-!
# C65: which assertions of the unit tests hold for every random choice
-/

noncomputable section

namespace MK

open Word Finset

/-- Specification: the sum of the absolute values of the coefficients. -/
def absSum {N : ℕ} (e : Nega N ℤ) : ℕ := ∑ j, (e.coeff j).natAbs

theorem absSum_le {N : ℕ} {e : Nega N ℤ} {B : ℕ} (h : e.Bdd B) : absSum e ≤ B * N := by
  unfold absSum
  refine (Finset.sum_le_card_nsmul _ _ B fun j _ => ?_).trans (by simp [mul_comm])
  have := h j
  rw [Int.abs_eq_natAbs] at this
  omega

/-! ## The norm -/

theorem wsub_wadd {sum q v : ℕ} (hs : sum < q) (hv : v < q) (hq : q < 2 ^ 62) :
    wsub (wadd sum q) v = sum + q - v := by
  have hm : montR = 2 ^ 64 := rfl
  unfold wadd
  rw [Nat.mod_eq_of_lt (by omega), wsub_eq (by omega) (by omega)]

theorem centred_val {q : ℕ} (hq : Odd q) (h1 : 1 < q) {x : ℤ} (hx : 2 * |x| < q - 1) :
    (((x : ℤ) : ZMod q).val < q / 2 ∧ ((x : ℤ) : ZMod q).val = x.natAbs) ∨
    (q / 2 ≤ ((x : ℤ) : ZMod q).val ∧ ((x : ℤ) : ZMod q).val + x.natAbs = q) := by
  obtain ⟨h, rfl⟩ := hq
  have : NeZero (2 * h + 1) := ⟨by omega⟩
  have hv := ZMod.val_intCast (n := 2 * h + 1) x
  have hlt := ZMod.val_lt ((x : ℤ) : ZMod (2 * h + 1))
  set v := ((x : ℤ) : ZMod (2 * h + 1)).val
  rcases le_or_gt 0 x with hx0 | hx0
  · left
    rw [abs_of_nonneg hx0] at hx
    rw [Int.emod_eq_of_lt hx0 (by omega)] at hv
    omega
  · right
    rw [abs_of_neg hx0] at hx
    have : x % ((2 * h + 1 : ℕ) : ℤ) = x + (2 * h + 1 : ℕ) := by
      rw [← Int.add_emod_right, Int.emod_eq_of_lt (by omega) (by omega)]
    rw [this] at hv
    omega

/-- The inner loop sums the absolute values, modulo the modulus. -/
theorem innerSumRow_spec {N q : ℕ} [NeZero N] (hq : Odd q) (h1 : 1 < q) (h62 : q < 2 ^ 62) {e : Nega N ℤ}
    (he : ∀ j, 2 * |e.coeff j| < q - 1) :
    innerSumRow q (Nega.red q e).coeff < q ∧
      (innerSumRow q (Nega.red q e).coeff : ZMod q) = (absSum e : ZMod q) := by
  have hm : montR = 2 ^ 64 := rfl
  have key : ∀ (l : List (Fin N)) (s : ℕ), s < q →
      l.foldl (fun sum j =>
        let v := ((Nega.red q e).coeff j).val
        if v ≥ q / 2 then CRed (wsub (wadd sum q) v) q else CRed (wadd sum v) q) s < q ∧
      ((l.foldl (fun sum j =>
        let v := ((Nega.red q e).coeff j).val
        if v ≥ q / 2 then CRed (wsub (wadd sum q) v) q else CRed (wadd sum v) q) s : ℕ) : ZMod q) =
        (s : ZMod q) + ((l.map fun j => (e.coeff j).natAbs).sum : ℕ) := by
    intro l
    induction l with
    | nil => intro s hs; simpa using hs
    | cons j l ih =>
      intro s hs
      have hb : (let v := ((Nega.red q e).coeff j).val
          if v ≥ q / 2 then CRed (wsub (wadd s q) v) q else CRed (wadd s v) q) < q ∧
          (((let v := ((Nega.red q e).coeff j).val
          if v ≥ q / 2 then CRed (wsub (wadd s q) v) q else CRed (wadd s v) q) : ℕ) : ZMod q) =
            (s : ZMod q) + ((e.coeff j).natAbs : ℕ) := by
        have : NeZero q := ⟨by omega⟩
        have hlt := ZMod.val_lt ((Nega.red q e).coeff j)
        dsimp only
        rcases centred_val hq h1 (he j) with ⟨c1, c2⟩ | ⟨c1, c2⟩
        · have c1' : ¬ ((Nega.red q e).coeff j).val ≥ q / 2 := not_le.mpr c1
          rw [if_neg c1', show ((Nega.red q e).coeff j).val = (e.coeff j).natAbs from c2]
          rw [show ((Nega.red q e).coeff j).val = (e.coeff j).natAbs from c2] at hlt
          have : wadd s (e.coeff j).natAbs = s + (e.coeff j).natAbs := by
            unfold wadd; exact Nat.mod_eq_of_lt (by omega)
          rw [this]
          obtain ⟨d1, d2⟩ := CRed_spec (a := s + (e.coeff j).natAbs) (q := q) (by omega) (by omega)
          exact ⟨d1, by rw [d2]; push_cast; ring⟩
        · rw [if_pos (show ((Nega.red q e).coeff j).val ≥ q / 2 from c1), wsub_wadd hs hlt h62]
          have c2' : ((Nega.red q e).coeff j).val + (e.coeff j).natAbs = q := c2
          have : s + q - ((Nega.red q e).coeff j).val = s + (e.coeff j).natAbs := by omega
          have hq2 : (e.coeff j).natAbs < q := by
            have := he j
            rw [Int.abs_eq_natAbs] at this
            omega
          rw [this]
          obtain ⟨d1, d2⟩ := CRed_spec (a := s + (e.coeff j).natAbs) (q := q) (by omega) (by omega)
          exact ⟨d1, by rw [d2]; push_cast; ring⟩
      obtain ⟨a1, a2⟩ := ih _ hb.1
      refine ⟨a1, a2.trans ?_⟩
      rw [hb.2]
      simp only [List.map_cons, List.sum_cons]
      push_cast
      ring
  obtain ⟨k1, k2⟩ := key (List.finRange N) 0 (by omega)
  refine ⟨k1, ?_⟩
  unfold innerSumRow absSum
  rw [k2, Fin.sum_univ_def]
  simp

theorem forLt_crt {N : ℕ} {m : ℕ → ℕ} (full : ℕ) (poly : RPoly N m) (n : ℕ) :
    forLt n (crtStep full poly) (1, 0) = (∏ i ∈ range n, m i,
      ∑ i ∈ range n, innerSumRow (m i) (poly.row i) *
        (full / m i * (((full / m i : ℕ) : ZMod (m i))⁻¹).val)) := by
  induction n with
  | zero => rfl
  | succ n ih => simp only [forLt, ih, crtStep, prod_range_succ, sum_range_succ]

/-- The validity of a chain of moduli for the norm. -/
structure GoodMod (m : ℕ → ℕ) (n : ℕ) : Prop where
  odd : ∀ i < n, Odd (m i)
  one_lt : ∀ i < n, 1 < m i
  lt : ∀ i < n, m i < 2 ^ 62
  cop : ∀ i j, i < n → j < n → i ≠ j → (m i).Coprime (m j)

/-- **C65**, the norm: on the residues of an integer polynomial whose coefficients are below
half of every modulus, `log2OfInnerSum` is the bit length of the sum of the absolute values of
the coefficients, reduced modulo the product of the moduli up to the level — at every level of
the chain, although the code reconstructs with the product of *all* moduli. -/
theorem C65_log2OfInnerSum {N : ℕ} [NeZero N] {m : ℕ → ℕ} {n level : ℕ} (hm : GoodMod m n)
    (hl : level < n) {poly : RPoly N m} (hlen : level < poly.len) {e : Nega N ℤ}
    (hrow : ∀ i ≤ level, poly.row i = (Nega.red (m i) e).coeff)
    (he : ∀ i ≤ level, ∀ j, 2 * |e.coeff j| < m i - 1) :
    log2OfInnerSum n level poly =
      .ok (Nat.size ((∑ j, (e.coeff j).natAbs) % ∏ i ∈ range (level + 1), m i)) := by
  unfold log2OfInnerSum
  rw [if_pos ⟨hl, hlen⟩, forLt_crt]
  dsimp only
  congr 2
  set full := ∏ i ∈ range n, m i with hfull
  set T := ∑ i ∈ range (level + 1), innerSumRow (m i) (poly.row i) *
        (full / m i * (((full / m i : ℕ) : ZMod (m i))⁻¹).val) with hT
  have hquo : ∀ i < n, full / m i = ∏ j ∈ (range n).erase i, m j := by
    intro i hi
    rw [hfull, ← Finset.mul_prod_erase _ _ (mem_range.mpr hi),
      Nat.mul_div_cancel_left _ (by have := hm.one_lt i hi; omega)]
  have hmod : ∀ i ≤ level, T ≡ absSum e [MOD m i] := by
    intro i hi
    have hin : i < n := by omega
    have : NeZero (m i) := ⟨by have := hm.one_lt i hin; omega⟩
    rw [← ZMod.natCast_eq_natCast_iff, hT]
    push_cast
    rw [Finset.sum_eq_single i]
    · rw [ZMod.natCast_zmod_val, ZMod.coe_mul_inv_eq_one, mul_one, hrow i hi]
      · exact (innerSumRow_spec (hm.odd i hin) (hm.one_lt i hin) (hm.lt i hin) (he i hi)).2
      · rw [hquo i hin]
        exact Nat.Coprime.prod_left fun j hj => by
          rw [mem_erase, mem_range] at hj
          exact hm.cop j i hj.2 hin hj.1
    · intro j hj hji
      rw [mem_range] at hj
      have : ((full / m j : ℕ) : ZMod (m i)) = 0 := by
        rw [hquo j (by omega), ZMod.natCast_eq_zero_iff]
        exact Finset.dvd_prod_of_mem _ (mem_erase.mpr ⟨fun h => hji h.symm, mem_range.mpr hin⟩)
      rw [this, zero_mul, mul_zero]
    · intro h
      exact absurd (mem_range.mpr (by omega)) h
  show T ≡ absSum e [MOD _]
  have hdvd : ((∏ i ∈ range (level + 1), m i : ℕ) : ℤ) ∣ (absSum e : ℤ) - T := by
    push_cast
    refine Finset.prod_dvd_of_coprime ?_ ?_
    · intro i hi j hj hij
      rw [mem_coe, mem_range] at hi hj
      exact Nat.isCoprime_iff_coprime.mpr (hm.cop i j (by omega) (by omega) hij)
    · intro i hi
      rw [mem_range] at hi
      exact (Nat.modEq_iff_dvd.mp (hmod i (by omega)))
  exact Nat.modEq_iff_dvd.mpr hdvd

/-! ## The key generation tests -/

variable {C : Ctx}

theorem odd_of_coprime_montR {q : ℕ} (h : q.Coprime montR) : Odd q := by
  have : q.Coprime 2 := Nat.Coprime.coprime_dvd_right (⟨2 ^ 63, by unfold montR; norm_num⟩) h
  exact Nat.coprime_two_right.mp this

/-- Every modulus of both chains is above `K`. -/
structure Above (C : Ctx) (K : ℕ) : Prop where
  q : ∀ i < C.nQ, K < C.q i
  p : ∀ i < C.nP, K < C.p i

theorem Above.mono {K K' : ℕ} (h : Above C K) (hK : K' ≤ K) : Above C K' :=
  ⟨fun i hi => hK.trans_lt (h.q i hi), fun i hi => hK.trans_lt (h.p i hi)⟩

theorem goodModQ (hC : C.Good) (hF : C.Fits) {K : ℕ} (h : Above C (K + 1)) : GoodMod C.q C.nQ where
  odd i _ := odd_of_coprime_montR (hC.oddQ i)
  one_lt i hi := by have := h.q i hi; omega
  lt i _ := (hF.q_lt i).trans (by norm_num)
  cop i j := hC.copQ i j

theorem goodModP (hC : C.Good) (hF : C.Fits) {K : ℕ} (h : Above C (K + 1)) : GoodMod C.p C.nP where
  odd i _ := odd_of_coprime_montR (hC.oddP i)
  one_lt i hi := by have := h.p i hi; omega
  lt i _ := (hF.p_lt i).trans (by norm_num)
  cop i j := hC.copP i j

/-- A pair of polynomials holding the residues of one integer polynomial, in coefficient form. -/
structure HoldsQP (v : QP C) (e : Nega C.N ℤ) : Prop where
  lenQ : v.Q.len = C.nQ
  lenP : v.P.len = C.nP
  q : ∀ i < C.nQ, v.Q.row i = (Nega.red (C.q i) e).coeff
  p : ∀ i < C.nP, v.P.row i = (Nega.red (C.p i) e).coeff

theorem checkQP_spec (hC : C.Good) (hF : C.Fits) {B : ℕ} (h : Above C (2 * B + 1)) {v : QP C}
    {e : Nega C.N ℤ} (hv : HoldsQP v e) (he : e.Bdd B) (bound : ℕ) :
    checkQP bound v = .ok (decide (Nat.size (absSum e % ∏ i ∈ range C.nQ, C.q i) ≤ bound) &&
      decide (Nat.size (absSum e % ∏ i ∈ range C.nP, C.p i) ≤ bound)) := by
  have hq := hC.nQ_pos
  have hp := hC.nP_pos
  have eQ := C65_log2OfInnerSum (goodModQ hC hF h) (level := C.lq) (by show C.nQ - 1 < _; omega)
    (poly := v.Q) (e := e) (by rw [hv.lenQ]; show C.nQ - 1 < _; omega)
    (fun i hi => hv.q i (hC.lq_lt.mp hi)) (fun i hi j => by
      have h1 := he j
      have h2 := h.q i (hC.lq_lt.mp hi)
      omega)
  have eP := C65_log2OfInnerSum (goodModP hC hF h) (level := C.lp) (by show C.nP - 1 < _; omega)
    (poly := v.P) (e := e) (by rw [hv.lenP]; show C.nP - 1 < _; omega)
    (fun i hi => hv.p i (hC.lp_lt.mp hi)) (fun i hi j => by
      have h1 := he j
      have h2 := h.p i (hC.lp_lt.mp hi)
      omega)
  have e1 : C.lq + 1 = C.nQ := by show C.nQ - 1 + 1 = _; omega
  have e2 : C.lp + 1 = C.nP := by show C.nP - 1 + 1 = _; omega
  unfold checkQP
  rw [eQ, eP, e1, e2]
  rfl

theorem checkQP_pass (hC : C.Good) (hF : C.Fits) {B : ℕ} (h : Above C (2 * B + 1)) {v : QP C}
    {e : Nega C.N ℤ} (hv : HoldsQP v e) (he : e.Bdd B) {bound : ℕ}
    (hb : Nat.size (absSum e) ≤ bound) : checkQP bound v = .ok true := by
  rw [checkQP_spec hC hF h hv he]
  have h1 := (Nat.size_le_size (Nat.mod_le (absSum e) (∏ i ∈ range C.nQ, C.q i))).trans hb
  have h2 := (Nat.size_le_size (Nat.mod_le (absSum e) (∏ i ∈ range C.nP, C.p i))).trans hb
  rw [decide_eq_true h1, decide_eq_true h2]
  rfl

theorem small_of_above (hC : C.Good) {B : ℕ} (h : Above C (2 * B + 1)) {e : Nega C.N ℤ}
    (he : e.Bdd B) : Small C e := fun j => by
  have h1 := he j
  have h2 := h.q 0 hC.nQ_pos
  omega

/-- **C65**, `PKGen`: the assertions of `testGenKeyPair` hold for every secret, every error
within the sampler's bound and every common reference string. -/
theorem C65_PKGen (hC : C.Good) (hF : C.Fits) (hbig : Above C 39) {crs : CRS C} {a : SwKey C}
    (ha : crs.get? 0 = some a) (s : Nega C.N ℤ) {e : Nega C.N ℤ} (he : e.Bdd 19) :
    testGenKeyPair crs s e = .ok true := by
  have hg := genGaussianError_rows hC (small_of_above hC (B := 19) hbig he) (QP.new : QP C)
  unfold testGenKeyPair GenKeyPair GenPublicKey
  rw [GoMap.deref_of_get? ha]
  simp only [Go.ok_bind, Go.pure_eq]
  refine checkQP_pass hC hF (B := 19) (e := e) hbig ⟨rfl, rfl, fun i hi => ?_, fun i hi => ?_⟩ he
    (Nat.size_le_size (absSum_le (B := 19) he))
  · have hi' := hC.lq_lt.mpr hi
    simp only [QP.invNttLvl, RPoly.invNttLvl, QP.mulMontAddLvl, RPoly.mulMontAddLvl,
      QP.mulMontSubLvl, RPoly.mulMontSubLvl, RPoly.write_row_of_le _ _ hi']
    have : ∀ x y : Row C.N (C.q i), (fun j => x j - RPoly.mred (y j) (y j) +
      RPoly.mred (y j) (y j)) = x := fun x y => funext fun j => sub_add_cancel _ _
    simp only [sub_add_cancel]
    have h1 := hg.1 i hi
    unfold GenGaussianError at h1
    exact (congrArg (fun r => ((C.nttQ.equiv i).symm r).coeff) h1).trans (by
      rw [RingEquiv.symm_apply_apply])
  · have hi' := hC.lp_lt.mpr hi
    simp only [QP.invNttLvl, RPoly.invNttLvl, QP.mulMontAddLvl, RPoly.mulMontAddLvl,
      QP.mulMontSubLvl, RPoly.mulMontSubLvl, RPoly.write_row_of_le _ _ hi', sub_add_cancel]
    have h1 := hg.2 i hi
    unfold GenGaussianError at h1
    exact (congrArg (fun r => ((C.nttP.equiv i).symm r).coeff) h1).trans (by
      rw [RingEquiv.symm_apply_apply])

/-- `InvMForm` and `InvNTT` read the ring element out of its stored form. -/
theorem holdsQP_of_dec (hC : C.Good) {x : QP C} {e : Nega C.N ℤ} (hlQ : x.Q.len = C.nQ)
    (hlP : x.P.len = C.nP) (hq : ∀ i < C.nQ, C.nttQ.dec i (x.Q.row i) = Nega.red (C.q i) e)
    (hp : ∀ i < C.nP, C.nttP.dec i (x.P.row i) = Nega.red (C.p i) e) :
    HoldsQP (QP.invNttLvl C.lq C.lp (QP.invMformLvl C.lq C.lp x x)
      (QP.invMformLvl C.lq C.lp x x)) e := by
  refine ⟨hlQ, hlP, fun i hi => ?_, fun i hi => ?_⟩
  · simp only [QP.invNttLvl, RPoly.invNttLvl, QP.invMformLvl, RPoly.invMformLvl,
      RPoly.write_row_of_le _ _ (hC.lq_lt.mpr hi)]
    exact congrArg Nega.coeff (hq i hi)
  · simp only [QP.invNttLvl, RPoly.invNttLvl, QP.invMformLvl, RPoly.invMformLvl,
      RPoly.write_row_of_le _ _ (hC.lp_lt.mpr hi)]
    exact congrArg Nega.coeff (hp i hi)

theorem Ntt.dec_subLvl {N : ℕ} [NeZero N] {m : ℕ → ℕ} (D : Ntt N m) {l i : ℕ} (h : i ≤ l)
    (a b out : RPoly N m) :
    D.dec i ((RPoly.subLvl l a b out).row i) = D.dec i (a.row i) - D.dec i (b.row i) := by
  unfold RPoly.subLvl
  rw [RPoly.write_row_of_le _ _ h, Ntt.dec_sub]

theorem Ntt.dec_addLvl {N : ℕ} [NeZero N] {m : ℕ → ℕ} (D : Ntt N m) {l i : ℕ} (h : i ≤ l)
    (a b out : RPoly N m) :
    D.dec i ((RPoly.addLvl l a b out).row i) = D.dec i (a.row i) + D.dec i (b.row i) := by
  unfold RPoly.addLvl
  rw [RPoly.write_row_of_le _ _ h, Ntt.dec_add]

theorem forLt_sub (sg : SwKey C) (n : ℕ) (x : QP C) :
    (forLt n (fun i tmp => QP.subLvl C.lq C.lp tmp (sg i) tmp) x).Q.len = x.Q.len ∧
    (forLt n (fun i tmp => QP.subLvl C.lq C.lp tmp (sg i) tmp) x).P.len = x.P.len ∧
    (∀ i ≤ C.lq, C.nttQ.dec i ((forLt n (fun i tmp => QP.subLvl C.lq C.lp tmp (sg i) tmp) x).Q.row i) =
      C.nttQ.dec i (x.Q.row i) - ∑ k ∈ range n, C.nttQ.dec i ((sg k).Q.row i)) ∧
    (∀ i ≤ C.lp, C.nttP.dec i ((forLt n (fun i tmp => QP.subLvl C.lq C.lp tmp (sg i) tmp) x).P.row i) =
      C.nttP.dec i (x.P.row i) - ∑ k ∈ range n, C.nttP.dec i ((sg k).P.row i)) := by
  induction n with
  | zero => simp [forLt]
  | succ n ih =>
    obtain ⟨h1, h2, h3, h4⟩ := ih
    refine ⟨h1, h2, fun i hi => ?_, fun i hi => ?_⟩
    · refine (Ntt.dec_subLvl C.nttQ hi _ _ _).trans ?_
      rw [h3 i hi, sum_range_succ]
      ring
    · refine (Ntt.dec_subLvl C.nttP hi _ _ _).trans ?_
      rw [h4 i hi, sum_range_succ]
      ring

/-- **C65**, `SWKGen`: the assertions of `testSwitchKeyGen` hold for every secret, all errors
within the sampler's bound and any content of the scratch polynomial. -/
theorem C65_SWKGen (hC : C.Good) (hF : C.Fits) (hbig : Above C (38 * C.betaMax + 1))
    (poolQ : RQ C) {s : Nega C.N ℤ} (hs : Small C s) {e : ℕ → Nega C.N ℤ}
    (he : ∀ k, (e k).Bdd 19) : testSwitchKeyGen poolQ s e = .ok true := by
  have hβ : 0 < C.betaMax := beta_pos hC.alpha_pos' _
  have hbig' : Above C (2 * 19 + 1) := hbig.mono (by omega)
  have hsk := genSecretKey_isSK hC hs "User"
  obtain ⟨gq, gp⟩ := genSwitchingKey_spec hC poolQ
    (fun k => small_of_above hC (B := 19) hbig' (he k))
    (fun i hi => hsk.decQ hC hi) SwKey.new
  unfold testSwitchKeyGen
  dsimp only
  set sg := (GenSwitchingKey poolQ e (GenSecretKey s "User") SwKey.new).2
  set x0 : QP C := { (QP.new : QP C) with
    Q := RPoly.mulScalarLvl C.lq (GenSecretKey s "User").value.Q (C.P : ℤ) (QP.new : QP C).Q } with hx0
  obtain ⟨f1, f2, f3, f4⟩ := forLt_sub sg C.betaMax x0
  set E : Nega C.N ℤ := -∑ k ∈ range C.betaMax, e k with hE
  have hEb : E.Bdd ((19 * C.betaMax : ℕ) : ℤ) := by
    rw [hE]
    refine (Nega.Bdd.sum_const (range C.betaMax) e fun k _ => he k).neg.mono ?_
    rw [card_range]; push_cast; linarith
  refine checkQP_pass hC hF (B := 19 * C.betaMax) (hbig.mono (by omega)) (e := E)
    (holdsQP_of_dec hC (f1.trans rfl) (f2.trans rfl) (fun i hi => ?_) (fun i hi => ?_)) hEb
    (Nat.size_le_size ((absSum_le hEb).trans (by
      rw [mul_assoc, mul_comm C.betaMax])))
  · have hi' := hC.lq_lt.mpr hi
    rw [f3 i hi', sum_congr rfl fun k hk => gq k (mem_range.mp hk) i hi, hx0]
    simp only [RPoly.mulScalarLvl, RPoly.write_row_of_le _ _ hi']
    rw [Ntt.dec_mulScalar, hsk.decQ hC hi, sum_add_distrib]
    have hg := sum_gad hC (L := C.lq) hi' fun _ => Nega.red (C.q i) s
    rw [hg, hE, map_neg, map_sum]
    push_cast
    ring
  · have hi' := hC.lp_lt.mpr hi
    rw [f4 i hi', sum_congr rfl fun k hk => gp k (mem_range.mp hk) i hi, hE, map_neg, map_sum, hx0]
    have : C.nttP.dec i ((QP.new : QP C).P.row i) = 0 := by
      show (C.nttP.equiv i).symm (fun j => _ * (0 : Row C.N (C.p i)) j) = 0
      simp only [Pi.zero_apply, mul_zero]
      exact map_zero _
    show C.nttP.dec i ((QP.new : QP C).P.row i) - _ = _
    rw [this, zero_sub]

/-! ### Relinearisation keys -/

/-- All entries have the rows of both chains. -/
def FullLen (k : SwKey C) : Prop := ∀ i, (k i).Q.len = C.nQ ∧ (k i).P.len = C.nP

theorem forLt_inv {σ : Type _} (P : σ → Prop) (n : ℕ) (body : ℕ → σ → σ) (x : σ) (h0 : P x)
    (h : ∀ i y, P y → P (body i y)) : P (forLt n body x) := by
  induction n with
  | zero => exact h0
  | succ n ih => exact h n _ ih

theorem FullLen.update {k : SwKey C} (h : FullLen k) (i : ℕ) {x : QP C} (hx : x.Q.len = C.nQ)
    (hp : x.P.len = C.nP) : FullLen (Function.update k i x) := fun j => by
  by_cases hj : j = i
  · subst hj; rw [Function.update_self]; exact ⟨hx, hp⟩
  · rw [Function.update_of_ne hj]; exact h j

theorem gadgetLoop_len (l base : ℕ) (pool : RQ C) (n j : ℕ) (p : RQ C) :
    (gadgetLoop l base pool n j p).len = p.len := by
  induction n generalizing j p with
  | zero => rfl
  | succ n ih =>
    unfold gadgetLoop
    split
    · rfl
    · rw [ih]

theorem genSwitchingKey_len (poolQ : RQ C) (e : ℕ → Nega C.N ℤ) (sk : SecretKey C) {swk : SwKey C}
    (h : FullLen swk) : FullLen (GenSwitchingKey poolQ e sk swk).2 := by
  unfold GenSwitchingKey
  refine forLt_inv FullLen _ _ _ h fun i y hy => hy.update i ?_ ?_
  · unfold swkEntry
    dsimp only
    rw [gadgetLoop_len]
    exact (hy i).1
  · exact (hy i).2

theorem genRelin_len {crs : CRS C} {poolQ : RQ C} {poolQP : QP C} {eb ed ev : ℕ → Nega C.N ℤ}
    {sk r : SecretKey C} {rlk : RelinKey C}
    (h : GenRelinearizationKey crs poolQ poolQP eb ed ev sk r = .ok rlk) :
    FullLen rlk.b ∧ FullLen rlk.d ∧ FullLen rlk.v := by
  have hnew : FullLen (SwKey.new : SwKey C) := fun i => ⟨rfl, rfl⟩
  unfold GenRelinearizationKey at h
  split at h
  · cases h
  · cases ha : crs.deref 0 with
    | error _ => rw [ha] at h; cases h
    | ok a =>
      cases hu : crs.deref (-1) with
      | error _ => rw [ha, hu] at h; cases h
      | ok u =>
        rw [ha, hu] at h
        injection h with h
        subst h
        refine ⟨?_, ?_, ?_⟩
        · refine forLt_inv (fun st : QP C × SwKey C => FullLen st.2) _ _ _ hnew fun i y hy => ?_
          exact hy.update i (hy i).1 (hy i).2
        · refine forLt_inv FullLen _ _ _ (genSwitchingKey_len _ _ _ hnew) fun i y hy => ?_
          exact hy.update i (hy i).1 (hy i).2
        · refine forLt_inv FullLen _ _ _ (genSwitchingKey_len _ _ _ hnew) fun i y hy => ?_
          exact hy.update i (hy i).1 (hy i).2

theorem checkAll_pass {n : ℕ} {f : ℕ → Go Bool} (h : ∀ i < n, f i = .ok true) :
    checkAll n f = .ok true := by
  induction n with
  | zero => rfl
  | succ n ih =>
    unfold checkAll
    rw [ih fun i hi => h i (by omega), h n (by omega)]
    rfl

theorem checkAll_fail {n : ℕ} (hn : 0 < n) {f : ℕ → Go Bool} (h : ∀ i < n, f i = .ok false) :
    checkAll n f = .ok false := by
  induction n with
  | zero => omega
  | succ n ih =>
    unfold checkAll
    rcases Nat.eq_zero_or_pos n with rfl | hn'
    · rw [h 0 (by omega)]; rfl
    · rw [ih hn' fun i hi => h i (by omega), h n (by omega)]
      rfl

/-- What the three loops of `testRelinKeyGen` compute: the errors of `b`, the differences of the
errors of `d` and `sg`, of `v` and `rg`. -/
theorem testRelin_spec (hC : C.Good) (hbig : Above C 39) {crs : CRS C}
    {a u : SwKey C} (ha : crs.get? 0 = some a) (hu : crs.get? (-1) = some u)
    (poolQ poolQ' poolQ'' : RQ C) (poolQP : QP C) {s r : Nega C.N ℤ} (hs : Small C s)
    (hr : Small C r) {esg erg eb ed ev : ℕ → Nega C.N ℤ} (hesg : ∀ k, (esg k).Bdd 19)
    (herg : ∀ k, (erg k).Bdd 19) (heb : ∀ k, (eb k).Bdd 19) (hed : ∀ k, (ed k).Bdd 19)
    (hev : ∀ k, (ev k).Bdd 19) (slack logN : ℕ) :
    ∃ xb xd xv : ℕ → QP C,
      (∀ k < C.betaMax, HoldsQP (xb k) (eb k)) ∧ (∀ k < C.betaMax, HoldsQP (xd k) (ed k - esg k)) ∧
      (∀ k < C.betaMax, HoldsQP (xv k) (erg k - ev k)) ∧
      testRelinKeyGen slack logN crs poolQ poolQ' poolQ'' poolQP s r esg erg eb ed ev = (do
        let b ← checkAll C.betaMax fun k => checkQP (slack + logN) (xb k)
        let d ← checkAll C.betaMax fun k => checkQP (slack + logN) (xd k)
        let v ← checkAll C.betaMax fun k => checkQP (slack + logN) (xv k)
        return (b, d, v)) := by
  have sm : ∀ {e : ℕ → Nega C.N ℤ}, (∀ k, (e k).Bdd 19) → ∀ k, Small C (e k) :=
    fun h k => small_of_above hC (B := 19) hbig (h k)
  have hsk := genSecretKey_isSK hC hs "User"
  have hrk := genSecretKey_isSK hC hr "User"
  have hnew : FullLen (SwKey.new : SwKey C) := fun i => ⟨rfl, rfl⟩
  obtain ⟨sq, sp⟩ := genSwitchingKey_spec hC poolQ (sm hesg) (fun i hi => hsk.decQ hC hi) SwKey.new
  obtain ⟨rq, rp⟩ := genSwitchingKey_spec hC poolQ' (sm herg) (fun i hi => hrk.decQ hC hi) SwKey.new
  obtain ⟨rlk, hrlk, -, hb, hd, hv⟩ := C34_relin_key hC ha hu hsk hrk (sm heb) (sm hed) (sm hev)
    poolQ'' poolQP
  obtain ⟨lb, ld, lv⟩ := genRelin_len hrlk
  refine ⟨?xb, ?xd, ?xv, ?_, ?_, ?_, ?last⟩
  case last =>
    unfold testRelinKeyGen
    rw [GoMap.deref_of_get? ha, GoMap.deref_of_get? hu]
    simp only [Go.ok_bind]
    rw [hrlk]
    rfl
  · intro k hk
    refine holdsQP_of_dec hC (lb k).1 (lb k).2 (fun i hi => ?_) (fun i hi => ?_)
    · refine (Ntt.dec_mulMontAdd C.nttQ (hC.lq_lt.mpr hi) _ _ _).trans ?_
      rw [hb.q k hk i hi, hsk.decQ hC hi, map_zero]
      ring
    · refine (Ntt.dec_mulMontAdd C.nttP (hC.lp_lt.mpr hi) _ _ _).trans ?_
      rw [hb.p k hk i hi, hsk.decP hC hi]
      ring
  · intro k hk
    refine holdsQP_of_dec hC (ld k).1 (ld k).2 (fun i hi => ?_) (fun i hi => ?_)
    · refine (Ntt.dec_subLvl C.nttQ (hC.lq_lt.mpr hi) _ _ _).trans ?_
      refine (congrArg (fun x => x - _) (Ntt.dec_mulMontAdd C.nttQ (hC.lq_lt.mpr hi) _ _ _)).trans ?_
      rw [hd.q k hk i hi, hrk.decQ hC hi, sq k hk i hi, map_sub]
      ring
    · refine (Ntt.dec_subLvl C.nttP (hC.lp_lt.mpr hi) _ _ _).trans ?_
      refine (congrArg (fun x => x - _) (Ntt.dec_mulMontAdd C.nttP (hC.lp_lt.mpr hi) _ _ _)).trans ?_
      rw [hd.p k hk i hi, hrk.decP hC hi, sp k hk i hi, map_sub]
      ring
  · intro k hk
    refine holdsQP_of_dec hC (lv k).1 (lv k).2 (fun i hi => ?_) (fun i hi => ?_)
    · refine (Ntt.dec_addLvl C.nttQ (hC.lq_lt.mpr hi) _ _ _).trans ?_
      refine (congrArg (fun x => x + _) (Ntt.dec_mulMontAdd C.nttQ (hC.lq_lt.mpr hi) _ _ _)).trans ?_
      rw [hv.q k hk i hi, hsk.decQ hC hi, rq k hk i hi, map_sub, map_neg, map_neg]
      ring
    · refine (Ntt.dec_addLvl C.nttP (hC.lp_lt.mpr hi) _ _ _).trans ?_
      refine (congrArg (fun x => x + _) (Ntt.dec_mulMontAdd C.nttP (hC.lp_lt.mpr hi) _ _ _)).trans ?_
      rw [hv.p k hk i hi, hsk.decP hC hi, rp k hk i hi, map_sub, map_neg]
      ring

theorem size_le_of_bdd {N logN B slack : ℕ} (hN : N = 2 ^ logN) (hB : B < 2 ^ slack)
    {e : Nega N ℤ} (he : e.Bdd B) : Nat.size (absSum e) ≤ slack + logN := by
  rw [Nat.size_le, pow_add, ← hN]
  have hpos : 0 < N := by rw [hN]; positivity
  exact (absSum_le he).trans_lt (Nat.mul_lt_mul_of_pos_right hB hpos)

/-- **C65**, `RLKGen`: with the bound `5 + LogN` of the test the loop over `b` passes for every
random choice; with `6 + LogN` all three loops would. -/
theorem C65_RLKGen {logN : ℕ} (hN : C.N = 2 ^ logN) (hC : C.Good) (hF : C.Fits)
    (hbig : Above C 77) {crs : CRS C} {a u : SwKey C} (ha : crs.get? 0 = some a)
    (hu : crs.get? (-1) = some u) (poolQ poolQ' poolQ'' : RQ C) (poolQP : QP C)
    {s r : Nega C.N ℤ} (hs : Small C s) (hr : Small C r) {esg erg eb ed ev : ℕ → Nega C.N ℤ}
    (hesg : ∀ k, (esg k).Bdd 19) (herg : ∀ k, (erg k).Bdd 19) (heb : ∀ k, (eb k).Bdd 19)
    (hed : ∀ k, (ed k).Bdd 19) (hev : ∀ k, (ev k).Bdd 19) :
    (∃ d v, testRelinKeyGen 5 logN crs poolQ poolQ' poolQ'' poolQP s r esg erg eb ed ev =
      .ok (true, d, v)) ∧
    testRelinKeyGen 6 logN crs poolQ poolQ' poolQ'' poolQP s r esg erg eb ed ev =
      .ok (true, true, true) := by
  have h38 : Above C (2 * 38 + 1) := hbig
  have hd : ∀ k, (ed k - esg k).Bdd 38 := fun k => ((hed k).sub (hesg k)).mono (by norm_num)
  have hv : ∀ k, (erg k - ev k).Bdd 38 := fun k => ((herg k).sub (hev k)).mono (by norm_num)
  have total : ∀ (n b : ℕ) (x : ℕ → QP C) (e : ℕ → Nega C.N ℤ), (∀ k, (e k).Bdd 38) →
      (∀ k < n, HoldsQP (x k) (e k)) → ∃ r, checkAll n (fun k => checkQP b (x k)) = .ok r := by
    intro n b x e he hx
    induction n with
    | zero => exact ⟨true, rfl⟩
    | succ n ih =>
      obtain ⟨r, hr⟩ := ih fun k hk => hx k (by omega)
      unfold checkAll
      rw [hr, checkQP_spec hC hF h38 (hx n (by omega)) (he n)]
      exact ⟨_, rfl⟩
  constructor
  · obtain ⟨xb, xd, xv, b1, d1, v1, e⟩ := testRelin_spec hC (hbig.mono (by norm_num)) ha hu poolQ
      poolQ' poolQ'' poolQP hs hr hesg herg heb hed hev 5 logN
    obtain ⟨d, hd'⟩ := total C.betaMax (5 + logN) xd _ hd d1
    obtain ⟨v, hv'⟩ := total C.betaMax (5 + logN) xv _ hv v1
    refine ⟨d, v, ?_⟩
    rw [e, checkAll_pass fun k hk => checkQP_pass hC hF (B := 19) (hbig.mono (by norm_num))
      (b1 k hk) (heb k) (size_le_of_bdd hN (B := 19) (by norm_num) (heb k)), hd', hv']
    rfl
  · obtain ⟨xb, xd, xv, b1, d1, v1, e⟩ := testRelin_spec hC (hbig.mono (by norm_num)) ha hu poolQ
      poolQ' poolQ'' poolQP hs hr hesg herg heb hed hev 6 logN
    rw [e, checkAll_pass fun k hk => checkQP_pass hC hF (B := 19) (hbig.mono (by norm_num))
      (b1 k hk) (heb k) (size_le_of_bdd hN (B := 19) (by norm_num) (heb k)),
      checkAll_pass fun k hk => checkQP_pass hC hF (B := 38) hbig (d1 k hk) (hd k)
        (size_le_of_bdd hN (B := 38) (by norm_num) (hd k)),
      checkAll_pass fun k hk => checkQP_pass hC hF (B := 38) hbig (v1 k hk) (hv k)
        (size_le_of_bdd hN (B := 38) (by norm_num) (hv k))]
    rfl

/-- **C65**, `RLKGen`, negative part: with the bound of the test, `5 + LogN`, the loops over `d`
and `v` fail for some errors within the sampler's bound, whatever the secrets and the other
samples are: they compare with switching keys `sg`, `rg` that carry errors of their own, so the
difference reaches `38` per coefficient, and `38·N ≥ 2^(5+LogN)`. -/
theorem C65_RLKGen_can_fail {logN : ℕ} (hN : C.N = 2 ^ logN) (hC : C.Good) (hF : C.Fits)
    (hbig : Above C 77) (hprod : 38 * C.N < ∏ i ∈ range C.nQ, C.q i) {crs : CRS C}
    {a u : SwKey C} (ha : crs.get? 0 = some a) (hu : crs.get? (-1) = some u)
    (poolQ poolQ' poolQ'' : RQ C) (poolQP : QP C) {s r : Nega C.N ℤ} (hs : Small C s)
    (hr : Small C r) {eb : ℕ → Nega C.N ℤ} (heb : ∀ k, (eb k).Bdd 19) :
    ∃ esg erg ed ev : ℕ → Nega C.N ℤ, (∀ k, (esg k).Bdd 19) ∧ (∀ k, (erg k).Bdd 19) ∧
      (∀ k, (ed k).Bdd 19) ∧ (∀ k, (ev k).Bdd 19) ∧
      testRelinKeyGen 5 logN crs poolQ poolQ' poolQ'' poolQP s r esg erg eb ed ev =
        .ok (true, false, false) := by
  set c : ℤ → Nega C.N ℤ := fun z => ⟨fun _ => z⟩ with hc
  have b1 : (c 19).Bdd 19 := fun _ => by show |(19 : ℤ)| ≤ 19; norm_num
  have b2 : (c (-19)).Bdd 19 := fun _ => by show |(-19 : ℤ)| ≤ 19; norm_num
  refine ⟨fun _ => c (-19), fun _ => c 19, fun _ => c 19, fun _ => c (-19), fun _ => b2,
    fun _ => b1, fun _ => b1, fun _ => b2, ?_⟩
  obtain ⟨xb, xd, xv, x1, d1, v1, e⟩ := testRelin_spec hC (hbig.mono (by norm_num)) ha hu poolQ
    poolQ' poolQ'' poolQP hs hr (esg := fun _ => c (-19)) (erg := fun _ => c 19)
    (ed := fun _ => c 19) (ev := fun _ => c (-19)) (fun _ => b2) (fun _ => b1) heb (fun _ => b1)
    (fun _ => b2) 5 logN
  have hdiff : c 19 - c (-19) = c 38 := by ext; rfl
  have b3 : (c 38).Bdd 38 := fun _ => by show |(38 : ℤ)| ≤ 38; norm_num
  have hsum : absSum (c 38) = 38 * C.N := by
    unfold absSum
    rw [hc]
    simp [mul_comm]
  have fail : ∀ x : QP C, HoldsQP x (c 19 - c (-19)) → checkQP (5 + logN) x = .ok false := by
    intro x hx
    rw [hdiff] at hx
    rw [checkQP_spec hC hF (B := 38) hbig hx b3, hsum, Nat.mod_eq_of_lt hprod]
    have : ¬ Nat.size (38 * C.N) ≤ 5 + logN := by
      rw [Nat.size_le, pow_add, ← hN, not_lt]
      exact Nat.mul_le_mul_right _ (by norm_num)
    rw [decide_eq_false this]
    rfl
  have hβ : 0 < C.betaMax := beta_pos hC.alpha_pos' _
  rw [e, checkAll_pass fun k hk => checkQP_pass hC hF (B := 19) (hbig.mono (by norm_num))
      (x1 k hk) (heb k) (size_le_of_bdd hN (B := 19) (by norm_num) (heb k)),
    checkAll_fail hβ fun k hk => fail _ (d1 k hk), checkAll_fail hβ fun k hk => fail _ (v1 k hk)]
  rfl

/-! ## Encryption and external product -/

theorem absSum_lt_prod {N B : ℕ} {e : Nega N ℤ} (he : e.Bdd B) {M : ℕ} (h : B * N < M) :
    absSum e % M = absSum e := Nat.mod_eq_of_lt ((absSum_le he).trans_lt h)

/-- The ciphertext of the zero plaintext under a fresh key pair. -/
theorem encrypt_zero (hC : C.Good) (hbig : Above C 39) {crs : CRS C} {a : SwKey C}
    (ha : crs.get? 0 = some a) (halen : (a 0).Q.len = C.nQ) {s e : Nega C.N ℤ} (hs : Small C s)
    (he : e.Bdd 19) (id : String) (hid : id ≠ "0") (pool : RQ C) (u e0 e1 : Nega C.N ℤ) :
    ∃ pk pool' ct c0 cu, GenPublicKey crs e (GenSecretKey s id) = .ok pk ∧
      Encrypt pool u e0 e1 (zeroPlaintext C.lq) pk
        (Ct.newNTT (zeroPlaintext C.lq : RQ C).level [id]) = .ok (pool', ct) ∧
      ct.Level = .ok C.lq ∧ ct.value.get? "0" = some c0 ∧ ct.value.get? id = some cu ∧
      c0.len = C.nQ ∧ c0.isNTT = true ∧
      ∀ i < C.nQ, (C.nttQ.equiv i).symm (c0.row i) +
        (C.nttQ.equiv i).symm (cu.row i) * Nega.red (C.q i) s =
          Nega.red (C.q i) (u * e + e0 + e1 * s) := by
  have hnQ := hC.nQ_pos
  obtain ⟨pk, hpk, hpid, hIs⟩ := C34_public_key hC ha halen (small_of_above hC (B := 19) hbig he)
    (genSecretKey_isSK hC hs id)
  have hpid' : pk.id = id := hpid
  have hlev : (zeroPlaintext C.lq : RQ C).level = C.lq := rfl
  rw [hlev]
  have hw := Ct.newNTT_wf (C := C) C.lq [id]
  have hin : id ∈ (Ct.newNTT C.lq [id] : Ct C).value.keys := by
    rw [← GoMap.has_iff, GoMap.has]
    simp [Ct.newNTT, GoMap.get?_mapVals, Ct.new_get?]
  obtain ⟨pool', r, hr, hwr, hk, -, -, hc0, hc1⟩ := encrypt_comps hC hw (pk := pk)
    (by rw [hpid']; exact hid) (by rw [hpid']; exact hin) pool u e0 e1 (zeroPlaintext C.lq)
    (l := C.lq) (by rw [hlev, min_self])
  obtain ⟨c0, h0⟩ := GoMap.exists_get?_of_mem hwr.zero_mem
  obtain ⟨cu, h1⟩ := GoMap.exists_get?_of_mem ((hk id).mpr hin)
  refine ⟨pk, pool', r, c0, cu, hpk, hr, hwr.level, h0, h1, ?_, hwr.ntt _ _ h0, fun i hi => ?_⟩
  · rw [hwr.len0 _ h0]; show C.nQ - 1 + 1 = _; omega
  · have v0 := hc0 i (hC.lq_lt.mpr hi)
    have v1 := hc1 i (hC.lq_lt.mpr hi)
    rw [hpid'] at v1
    simp only [Ct.comp, h0, h1, RPoly.val, hwr.ntt _ _ h0, hwr.ntt _ _ h1, if_true] at v0 v1
    have hz : (zeroPlaintext C.lq : RQ C).val C.nttQ i = 0 := by
      show (C.nttQ.equiv i).symm (0 : Row C.N (C.q i)) = 0
      exact map_zero _
    change (C.nttQ.equiv i).symm (c0.row i) = _ + (zeroPlaintext C.lq : RQ C).val C.nttQ i at v0
    rw [hz, add_zero] at v0
    rw [v0, v1, map_add, map_add, map_mul, map_mul, ← hIs i hi]
    ring

theorem symm_mred_sk (hC : C.Good) {sk : SecretKey C} {s : Nega C.N ℤ} (h : IsSK sk s) {i : ℕ}
    (hi : i < C.nQ) (c : Row C.N (C.q i)) :
    (C.nttQ.equiv i).symm (fun j => RPoly.mred (c j) (sk.value.Q.row i j)) =
      (C.nttQ.equiv i).symm c * Nega.red (C.q i) s := by
  have : (fun j => RPoly.mred (c j) (sk.value.Q.row i j)) =
      c * C.nttQ.equiv i (Nega.red (C.q i) s) := by
    funext j
    rw [h.q i hi j, RPoly.mred_mont' (hC.oddQ i)]
    rfl
  rw [this, map_mul, RingEquiv.symm_apply_apply]

/-- `testEncryptor` measures the noise `u·e + e0 + e1·s`. -/
theorem testEncryptor_spec (hC : C.Good) (hF : C.Fits) {B : ℕ} (hB : 19 ≤ B)
    (hbig : Above C (2 * B + 1)) {crs : CRS C} {a : SwKey C} (ha : crs.get? 0 = some a)
    (halen : (a 0).Q.len = C.nQ) (pool : RQ C) {s e u e0 e1 : Nega C.N ℤ} (hs : Small C s)
    (he : e.Bdd 19) (hw : (u * e + e0 + e1 * s).Bdd B) (slack logN : ℕ) :
    testEncryptor slack logN crs pool s e u e0 e1 = .ok (decide (Nat.size
      (absSum (u * e + e0 + e1 * s) % ∏ i ∈ range C.nQ, C.q i) ≤ slack + logN)) := by
  have hnQ := hC.nQ_pos
  obtain ⟨pk, pool', ct, c0, cu, h1, h2, h3, h4, h5, h6, h7, h8⟩ := encrypt_zero hC
    (hbig.mono (by omega)) ha halen hs he "tetsUser1" (by decide) pool u e0 e1
  have hsk := genSecretKey_isSK hC hs "tetsUser1"
  unfold testEncryptor GenKeyPair
  dsimp only
  rw [h1]
  simp only [Go.ok_bind, Go.pure_eq]
  rw [h2]
  simp only [Go.ok_bind]
  rw [h3, GoMap.deref_of_get? h4, GoMap.deref_of_get? h5]
  simp only [Go.ok_bind]
  rw [C65_log2OfInnerSum (goodModQ hC hF hbig) (level := C.lq) (by show C.nQ - 1 < _; omega)
    (e := u * e + e0 + e1 * s) (by
      show C.nQ - 1 < c0.len
      rw [h6]; omega)
    (fun i hi => by
      have hi' := hC.lq_lt.mp hi
      simp only [RPoly.invNttLvl, RPoly.mulMontAddLvl, RPoly.write_row_of_le _ _ hi]
      rw [← h8 i hi', ← symm_mred_sk hC hsk hi', ← map_add]
      rfl)
    (fun i hi j => by
      have h1 := hw j
      have h2 := hbig.q i (hC.lq_lt.mp hi)
      omega)]
  simp only [Go.ok_bind]
  have e1 : C.lq + 1 = C.nQ := by show C.nQ - 1 + 1 = _; omega
  rw [e1]
  show Except.ok (decide (C.lq = C.lq) && _) = _
  rw [decide_eq_true rfl, Bool.true_and]
  rfl

theorem encNoise_bdd {u e e0 e1 s : Nega C.N ℤ} (hu : u.Bdd 1) (he : e.Bdd 19) (he0 : e0.Bdd 19)
    (he1 : e1.Bdd 19) (hs : s.Bdd 1) :
    (u * e + e0 + e1 * s).Bdd ((19 * (2 * C.N + 1) : ℕ) : ℤ) :=
  (((hu.mul he).add he0).add (he1.mul hs)).mono (by push_cast; linarith)

/-- **C65**, `Encrypt/Pk`: if `19·(2N+1) < 2^slack` the assertion holds for every random choice
(for the `12` and `9` of the tests: ring degrees below 108 and 13). -/
theorem C65_Encrypt {logN : ℕ} (hN : C.N = 2 ^ logN) (hC : C.Good) (hF : C.Fits)
    (hbig : Above C (38 * (2 * C.N + 1) + 1)) {crs : CRS C} {a : SwKey C}
    (ha : crs.get? 0 = some a) (halen : (a 0).Q.len = C.nQ) (pool : RQ C)
    {s e u e0 e1 : Nega C.N ℤ} (hs : s.Bdd 1) (hu : u.Bdd 1) (he : e.Bdd 19) (he0 : e0.Bdd 19)
    (he1 : e1.Bdd 19) {slack : ℕ} (hslack : 19 * (2 * C.N + 1) < 2 ^ slack) :
    testEncryptor slack logN crs pool s e u e0 e1 = .ok true := by
  have hb := encNoise_bdd hu he he0 he1 hs
  have hbig' : Above C (2 * (19 * (2 * C.N + 1)) + 1) := hbig.mono (by omega)
  rw [testEncryptor_spec hC hF (B := 19 * (2 * C.N + 1)) (by omega) hbig' ha halen pool
    (small_of_above hC hbig' (hs.mono (by push_cast; omega))) he hb]
  rw [decide_eq_true]
  exact (Nat.size_le_size (Nat.mod_le _ _)).trans (size_le_of_bdd hN hslack hb)

/-- The product of the all-one polynomial with a constant vector. -/
theorem ones_mul_const {N : ℕ} [NeZero N] (c : ℤ) (k : Fin N) :
    ((⟨fun _ => 1⟩ : Nega N ℤ) * ⟨fun _ => c⟩).coeff k = c * (2 * (k.val + 1) - N) := by
  show ∑ i : Fin N, ∑ j : Fin N, (if (i.val + j.val) % N = k.val then
    Nega.sgn N (i.val + j.val) • ((1 : ℤ) * c) else 0) = _
  have hN : 0 < N := Nat.pos_of_ne_zero (NeZero.ne N)
  have inner : ∀ i : Fin N, ∑ j : Fin N, (if (i.val + j.val) % N = k.val then
      Nega.sgn N (i.val + j.val) • ((1 : ℤ) * c) else 0) = if i ≤ k then c else -c := by
    intro i
    have hi := i.isLt
    have hk := k.isLt
    by_cases h : i ≤ k
    · have h' : i.val ≤ k.val := h
      rw [Finset.sum_eq_single ⟨k.val - i.val, by omega⟩]
      · rw [if_pos h]
        have e1 : i.val + (k.val - i.val) = k.val := by omega
        simp only [e1]
        rw [if_pos (Nat.mod_eq_of_lt hk)]
        simp [Nega.sgn, Nat.div_eq_of_lt hk]
      · intro j _ hj
        have hjl := j.isLt
        rw [if_neg]
        intro hm
        apply hj
        apply Fin.ext
        show j.val = k.val - i.val
        by_cases hlt : i.val + j.val < N
        · rw [Nat.mod_eq_of_lt hlt] at hm; omega
        · rw [Nat.mod_eq_sub_mod (by omega), Nat.mod_eq_of_lt (by omega)] at hm; omega
      · intro h; exact absurd (mem_univ _) h
    · have h' : k.val < i.val := not_le.mp h
      rw [Finset.sum_eq_single ⟨N + k.val - i.val, by omega⟩]
      · rw [if_neg h]
        have e1 : i.val + (N + k.val - i.val) = N + k.val := by omega
        simp only [e1]
        rw [if_pos (by rw [Nat.add_mod_left, Nat.mod_eq_of_lt hk])]
        have : (N + k.val) / N = 1 := by
          rw [Nat.add_div_left _ hN, Nat.div_eq_of_lt hk]
        simp [Nega.sgn, this]
      · intro j _ hj
        have hjl := j.isLt
        rw [if_neg]
        intro hm
        apply hj
        apply Fin.ext
        show j.val = N + k.val - i.val
        by_cases hlt : i.val + j.val < N
        · rw [Nat.mod_eq_of_lt hlt] at hm; omega
        · rw [Nat.mod_eq_sub_mod (by omega), Nat.mod_eq_of_lt (by omega)] at hm; omega
      · intro h; exact absurd (mem_univ _) h
  rw [Finset.sum_congr rfl fun i _ => inner i, Finset.sum_ite, Finset.sum_const, Finset.sum_const]
  have c1 : (univ.filter fun i : Fin N => i ≤ k).card = k.val + 1 := by
    rw [← Fin.card_Iic]; congr 1; ext; simp
  have c2 : (univ.filter fun i : Fin N => ¬ i ≤ k).card = N - (k.val + 1) := by
    have := Finset.card_filter_add_card_filter_not (s := (univ : Finset (Fin N))) (fun i => i ≤ k)
    rw [c1, card_univ, Fintype.card_fin] at this
    omega
  rw [c1, c2]
  have hk := k.isLt
  simp only [nsmul_eq_mul]
  rw [Nat.cast_sub (by omega)]
  push_cast
  ring

theorem sum_76 (h : ℕ) : 38 * (h * (h + 1)) = ∑ k ∈ range h, 76 * (k + 1) := by
  induction h with
  | zero => rfl
  | succ n ih => rw [Finset.sum_range_succ, ← ih]; ring

/-- **C65**, `Encrypt/Pk`, negative part: for ring degrees from 512 on, some key pair and some
randomness within the samplers' bounds violate the assertion, for both bounds of the test. -/
theorem C65_Encrypt_can_fail {logN : ℕ} (hN : C.N = 2 ^ logN) (h9 : 9 ≤ logN) (hC : C.Good)
    (hF : C.Fits) (hbig : Above C (38 * (2 * C.N + 1) + 1))
    (hprod : 19 * (2 * C.N + 1) * C.N < ∏ i ∈ range C.nQ, C.q i) {crs : CRS C} {a : SwKey C}
    (ha : crs.get? 0 = some a) (halen : (a 0).Q.len = C.nQ) (pool : RQ C) :
    ∃ s e u e0 e1 : Nega C.N ℤ, s.Bdd 1 ∧ u.Bdd 1 ∧ e.Bdd 19 ∧ e0.Bdd 19 ∧ e1.Bdd 19 ∧
      testEncryptor 12 logN crs pool s e u e0 e1 = .ok false ∧
      testEncryptor 9 logN crs pool s e u e0 e1 = .ok false := by
  set c : ℤ → Nega C.N ℤ := fun z => ⟨fun _ => z⟩ with hc
  have b1 : (c 1).Bdd 1 := fun _ => by show |(1 : ℤ)| ≤ 1; norm_num
  have b19 : (c 19).Bdd 19 := fun _ => by show |(19 : ℤ)| ≤ 19; norm_num
  have hb := encNoise_bdd b1 b19 b19 b19 b1
  have hbig' : Above C (2 * (19 * (2 * C.N + 1)) + 1) := hbig.mono (by omega)
  have hsm : Small C (c 1) := small_of_above hC hbig' (b1.mono (by push_cast; omega))
  set w := c 1 * c 19 + c 19 + c 19 * c 1 with hw
  have hcoef : ∀ k, w.coeff k = 38 * (2 * (k.val + 1) - C.N) + 19 := by
    intro k
    have h1 := ones_mul_const (N := C.N) 19 k
    rw [hw, mul_comm (c 19) (c 1), Nega.coeff_add, Nega.coeff_add]
    change (c 1 * c 19).coeff k = _ at h1
    rw [h1]
    show 19 * (2 * ((k.val : ℤ) + 1) - C.N) + 19 + _ = _
    ring
  obtain ⟨h, hh⟩ : ∃ h, C.N = 2 * h := ⟨2 ^ (logN - 1), by
    rw [hN, ← pow_succ']; congr 1; omega⟩
  have hh256 : 256 ≤ h := by
    have : 2 ^ 9 ≤ C.N := by rw [hN]; exact Nat.pow_le_pow_right (by norm_num) h9
    omega
  have hlow : 38 * (h * (h + 1)) ≤ absSum w := by
    have e1 : absSum w = ∑ k ∈ range C.N, (38 * (2 * ((k : ℤ) + 1) - C.N) + 19).natAbs := by
      unfold absSum
      rw [← Fin.sum_univ_eq_sum_range (fun k : ℕ => (38 * (2 * ((k : ℤ) + 1) - C.N) + 19).natAbs)]
      exact Finset.sum_congr rfl fun k _ => by rw [hcoef]
    rw [e1, hh, two_mul h, Finset.sum_range_add]
    refine le_trans ?_ (Nat.le_add_left _ _)
    have e2 := sum_76 h
    rw [e2]
    refine Finset.sum_le_sum fun k _ => ?_
    push_cast
    omega
  have fail : ∀ slack ≤ 12, testEncryptor slack logN crs pool (c 1) (c 19) (c 1) (c 19) (c 19) =
      .ok false := by
    intro slack hs
    rw [testEncryptor_spec hC hF (B := 19 * (2 * C.N + 1)) (by omega) hbig' ha halen pool hsm b19
      hb, ← hw, absSum_lt_prod hb hprod]
    rw [decide_eq_false]
    rw [Nat.size_le, pow_add, ← hN, not_lt]
    refine le_trans (Nat.mul_le_mul_right _ (Nat.pow_le_pow_right (by norm_num) hs)) ?_
    refine le_trans ?_ hlow
    rw [hh]
    nlinarith
  exact ⟨c 1, c 19, c 1, c 19, c 19, b1, b1, b19, b19, b19, fail 12 le_rfl, fail 9 (by norm_num)⟩

/-- **C65**, `ExternalProductMaxLevel`: the assertion holds for every key, every randomness of
the encryption and all errors of the switching key within the sampler's bound. -/
theorem C65_ExternalProduct {logN : ℕ} (hN : C.N = 2 ^ logN) (hC : C.Good) (hF : C.Fits)
    (hbig : Above C 2047) {crs : CRS C} {a : SwKey C} (ha : crs.get? 0 = some a)
    (halen : (a 0).Q.len = C.nQ) (pool poolQ : RQ C) {s e : Nega C.N ℤ} (u e0 e1 : Nega C.N ℤ)
    (hs : Small C s) (he : e.Bdd 19) {esg : ℕ → Nega C.N ℤ} (hesg : ∀ k, (esg k).Bdd 19) {D : ℕ}
    (hD : ∀ k < C.beta C.lq, 2 * blockSetProd C C.lq k ≤ D)
    (hnoise : C.beta C.lq * (C.N * (D * 19)) ≤ 1021 * C.P) :
    testExternalProduct 10 logN crs pool poolQ s e u e0 e1 esg = .ok true := by
  have hnQ := hC.nQ_pos
  have hbig' : Above C 39 := hbig.mono (by norm_num)
  obtain ⟨pk, pool', ct, c0, cu, h1, h2, h3, h4, h5, h6, h7, h8⟩ := encrypt_zero hC hbig' ha halen
    hs he "tetsUser1" (by decide) pool u e0 e1
  have hsk := genSecretKey_isSK hC hs "tetsUser1"
  obtain ⟨gq, gp⟩ := genSwitchingKey_spec hC poolQ
    (fun k => small_of_above hC (B := 19) hbig' (hesg k)) (fun i hi => hsk.decQ hC hi) SwKey.new
  set sg := (GenSwitchingKey poolQ esg (GenSecretKey s "tetsUser1") SwKey.new).2 with hsg
  have hsw : SwEq sg sg 0 s esg :=
    ⟨fun k hk i hi => by rw [gq k hk i hi, map_zero, mul_zero, sub_zero],
     fun k hk i hi => by rw [gp k hk i hi, map_zero, mul_zero, sub_zero]⟩
  obtain ⟨W, hW, hE⟩ := C30_external_product hC hF hsw (L := C.lq) (by show C.nQ - 1 < _; omega)
    (D := D) (T := 0) (B := 19) (fun k hk => by exact_mod_cast hD k hk)
    (fun _ => by simp) (fun k _ => hesg k) c0
  have hP := hC.P_pos
  have hWb : W.Bdd ((1023 : ℕ) : ℤ) := by
    intro x
    have h1 := hW x
    have h2 : ((C.beta C.lq * (C.N * (D * 19)) : ℕ) : ℤ) ≤ ((1021 * C.P : ℕ) : ℤ) := by
      exact_mod_cast hnoise
    push_cast at h2
    have h3 : (C.P : ℤ) * |W.coeff x| ≤ C.P * 1023 := by linarith
    have hP' : (0 : ℤ) < C.P := by exact_mod_cast hP
    have := le_of_mul_le_mul_left h3 hP'
    exact_mod_cast this
  unfold testExternalProduct
  dsimp only
  rw [h1]
  simp only [Go.ok_bind]
  rw [h2]
  simp only [Go.ok_bind]
  rw [h3, GoMap.deref_of_get? h4]
  simp only [Go.ok_bind]
  set tmp := ((KS.new : KS C).ExternalProduct C.lq c0 sg (RPoly.new (C.lq + 1))).2 with htmp
  have hlen : tmp.len = C.lq + 1 := rfl
  have hlv : (RPoly.invNttLvl C.nttQ C.lq (RPoly.mulMontSubLvl C.lq c0
      (GenSecretKey s "tetsUser1").value.Q (RPoly.nttLvl C.nttQ C.lq tmp tmp))
      (RPoly.mulMontSubLvl C.lq c0 (GenSecretKey s "tetsUser1").value.Q
        (RPoly.nttLvl C.nttQ C.lq tmp tmp))).level = C.lq := by
    show tmp.len - 1 = _
    rw [hlen]; rfl
  rw [hlv, C65_log2OfInnerSum (goodModQ hC hF (K := 2046) hbig) (level := C.lq)
    (by show C.nQ - 1 < _; omega) (e := W) (by
      show C.lq < tmp.len
      rw [hlen]; omega)
    (fun i hi => by
      have hi' := hC.lq_lt.mp hi
      simp only [RPoly.invNttLvl, RPoly.mulMontSubLvl, RPoly.nttLvl, RPoly.write_row_of_le _ _ hi]
      have := hE KS.new KS.new (RPoly.new (C.lq + 1)) (RPoly.new (C.lq + 1)) i hi
      rw [map_zero, zero_mul, add_zero, RPoly.val, if_pos h7] at this
      have e1 : (fun j => (C.nttQ.equiv i ⟨tmp.row i⟩) j -
          RPoly.mred (c0.row i j) ((GenSecretKey s "tetsUser1").value.Q.row i j)) =
          C.nttQ.equiv i ⟨tmp.row i⟩ - fun j => RPoly.mred (c0.row i j)
            ((GenSecretKey s "tetsUser1").value.Q.row i j) := rfl
      rw [e1, map_sub, RingEquiv.symm_apply_apply, symm_mred_sk hC hsk hi', this, add_sub_cancel_left])
    (fun i hi j => by
      have h1 := hWb j
      have h2 := hbig.q i (hC.lq_lt.mp hi)
      omega)]
  simp only [Go.ok_bind]
  show Except.ok (decide _) = _
  rw [decide_eq_true]
  exact (Nat.size_le_size (Nat.mod_le _ _)).trans (size_le_of_bdd hN (B := 1023) (by norm_num) hWb)

end MK
