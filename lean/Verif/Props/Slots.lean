import Verif.Props.EvRot
import Verif.Props.EvMul
import Verif.NttInst
import Verif.Props.Linear
import Mathlib.Data.Nat.ChineseRemainder
import Mathlib.Analysis.SpecialFunctions.Complex.Circle
import Mathlib.RingTheory.ZMod.UnitsCyclic
import Mathlib.RingTheory.RootsOfUnity.Complex

/-!
# C37: Galois automorphisms and CKKS slots

The slots of a polynomial of degree below `N` are its values at `ψ^(5^j)`, `j < N/2`, with
`ψ = exp(iπ/N)` (the order in which lattigo's encoder reads and writes a message).
-/

noncomputable section

namespace MK

open Finset Complex

/-- The `j`-th slot point `exp(iπ/N)^(5^j)`. -/
def slotPt (N j : ℕ) : ℂ := Complex.exp (Real.pi * Complex.I / N) ^ 5 ^ j

variable {N : ℕ} {A : Type _} [CommRing A]

/-- The `j`-th slot of `m`: its value at the slot point, for coefficients embedded into `ℂ`
by `f`. -/
def slot (f : A →+* ℂ) (m : Nega N A) (j : ℕ) : ℂ := ∑ i : Fin N, f (m.coeff i) * slotPt N j ^ i.val

theorem psi_pow (hN : N ≠ 0) : Complex.exp (Real.pi * Complex.I / N) ^ N = -1 := by
  rw [← Complex.exp_nat_mul, mul_div_cancel₀ _ (by exact_mod_cast hN), Complex.exp_pi_mul_I]

theorem psi_primitive (hN : N ≠ 0) :
    IsPrimitiveRoot (Complex.exp (Real.pi * Complex.I / N)) (2 * N) := by
  have := Complex.isPrimitiveRoot_exp (2 * N) (by omega)
  have e : 2 * (Real.pi : ℂ) * Complex.I / ((2 * N : ℕ) : ℂ) = Real.pi * Complex.I / N := by
    push_cast
    have : (N : ℂ) ≠ 0 := by exact_mod_cast hN
    field_simp
  rwa [e] at this

theorem slotPt_pow (hN : N ≠ 0) (j : ℕ) : slotPt N j ^ N = -1 := by
  unfold slotPt
  rw [← pow_mul, mul_comm (5 ^ j), pow_mul, psi_pow hN]
  exact (Odd.pow (by decide)).neg_one_pow

theorem slotPt_congr (hN : N ≠ 0) {j k : ℕ} (h : 5 ^ j ≡ 5 ^ k [MOD 2 * N]) :
    slotPt N j = slotPt N k := by
  unfold slotPt
  rw [pow_eq_pow_mod (5 ^ j) (psi_primitive hN).pow_eq_one,
    pow_eq_pow_mod (5 ^ k) (psi_primitive hN).pow_eq_one]
  congr 1

/-- `5` has order `N/2` modulo `2N`. -/
theorem five_pow_congr {logN : ℕ} (hN : N = 2 ^ logN) (hlog : 1 ≤ logN) (a b : ℕ) :
    5 ^ a ≡ 5 ^ b [MOD 2 * N] ↔ a ≡ b [MOD N / 2] := by
  obtain ⟨n, rfl⟩ : ∃ n, logN = n + 1 := ⟨logN - 1, by omega⟩
  have h1 : 2 * N = 2 ^ (n + 2) := by rw [hN]; ring
  have h2 : N / 2 = 2 ^ n := by rw [hN, pow_succ]; omega
  rw [h1, h2, ← ZMod.natCast_eq_natCast_iff]
  push_cast
  rw [← ZMod.orderOf_five n]
  have hu : IsUnit (5 : ZMod (2 ^ (n + 2))) := by
    have := (ZMod.isUnit_iff_coprime 5 (2 ^ (n + 2))).mpr (Nat.Coprime.pow_right _ (by norm_num))
    exact_mod_cast this
  obtain ⟨u, hu'⟩ := hu
  rw [← hu', ← Units.val_pow_eq_pow_val, ← Units.val_pow_eq_pow_val, Units.val_inj, orderOf_units]
  exact pow_eq_pow_iff_modEq

theorem slot_eq_evalAt [NeZero N] (f : A →+* ℂ) (m : Nega N A) (j : ℕ) :
    slot f m j = Nega.evalAt f (slotPt N j) (slotPt_pow (NeZero.ne N) j) m := by
  rw [Nega.evalAt_apply]; rfl

/-- Slots add. -/
theorem slot_add [NeZero N] (f : A →+* ℂ) (a b : Nega N A) (j : ℕ) :
    slot f (a + b) j = slot f a j + slot f b j := by
  simp only [slot_eq_evalAt, map_add]

/-- Slots multiply. -/
theorem slot_mul [NeZero N] (f : A →+* ℂ) (a b : Nega N A) (j : ℕ) :
    slot f (a * b) j = slot f a j * slot f b j := by
  simp only [slot_eq_evalAt, map_mul]

theorem slot_sub [NeZero N] (f : A →+* ℂ) (a b : Nega N A) (j : ℕ) :
    slot f (a - b) j = slot f a j - slot f b j := by
  simp only [slot_eq_evalAt, map_sub]

/-- A slot is bounded by the sum of the coefficients. -/
theorem slot_le {a : Nega N ℤ} {B : ℝ} (hB : ∀ i, |(a.coeff i : ℝ)| ≤ B) (j : ℕ) :
    ‖slot (Int.castRingHom ℂ) a j‖ ≤ N * B := by
  unfold slot
  refine (norm_sum_le _ _).trans ?_
  have hpt : ‖slotPt N j‖ = 1 := by
    unfold slotPt
    have : Real.pi * Complex.I / N = ((Real.pi / N : ℝ) : ℂ) * Complex.I := by push_cast; ring
    rw [norm_pow, this, Complex.norm_exp_ofReal_mul_I, one_pow]
  calc ∑ i : Fin N, ‖(Int.castRingHom ℂ) (a.coeff i) * slotPt N j ^ i.val‖
      ≤ ∑ _i : Fin N, B := by
        refine sum_le_sum fun i _ => ?_
        rw [norm_mul, norm_pow, hpt, one_pow, mul_one]
        simpa using hB i
    _ = N * B := by simp

/-- **C37 (rotation).** Evaluating `m(X^(5^k))` at the slot points gives the slots of `m` rotated
left by `k`: for every polynomial over every ring embedded in `ℂ`, every `k` and `N = 2^logN`. -/
theorem C37_rotation [NeZero N] {logN : ℕ} (hN : N = 2 ^ logN) (hlog : 1 ≤ logN) (f : A →+* ℂ)
    (m : Nega N A) (k j : ℕ) :
    slot f (Nega.auto (5 ^ k) m) j = slot f m ((j + k) % (N / 2)) := by
  have h : slotPt N j ^ 5 ^ k = slotPt N ((j + k) % (N / 2)) := by
    have : slotPt N j ^ 5 ^ k = slotPt N (j + k) := by
      unfold slotPt; rw [← pow_mul, ← pow_add]
    rw [this]
    exact slotPt_congr (NeZero.ne N)
      ((five_pow_congr hN hlog _ _).mpr (Nat.mod_modEq _ _).symm)
  rw [slot_eq_evalAt, Nega.evalAt_auto (h' := by
    rw [h]; exact slotPt_pow (NeZero.ne N) _), Nega.evalAt_apply, h]
  rfl

/-- **C37 (conjugation).** Evaluating a real polynomial at `X^(2N-1)` conjugates every slot. -/
theorem C37_conjugation [NeZero N] (m : Nega N ℝ) (j : ℕ) :
    slot Complex.ofRealHom (Nega.auto (2 * N - 1) m) j =
      starRingEnd ℂ (slot Complex.ofRealHom m j) := by
  have hN := NeZero.ne N
  have hinv : slotPt N j ^ (2 * N - 1) = (slotPt N j)⁻¹ := by
    have h1 : slotPt N j ^ (2 * N) = 1 := by
      rw [mul_comm, pow_mul, slotPt_pow hN]; norm_num
    have h0 : slotPt N j ≠ 0 := by
      intro h; rw [h, zero_pow (by omega)] at h1; exact zero_ne_one h1
    rw [eq_comm, inv_eq_iff_eq_inv, eq_comm, inv_eq_of_mul_eq_one_left]
    rw [← pow_succ', show 2 * N - 1 + 1 = 2 * N by omega, h1]
  have hconj : starRingEnd ℂ (slotPt N j) = slotPt N j ^ (2 * N - 1) := by
    rw [hinv]
    unfold slotPt
    have e : (Real.pi : ℂ) * Complex.I / N = ((Real.pi / N : ℝ) : ℂ) * Complex.I := by
      push_cast; ring
    rw [map_pow, ← inv_pow, ← Complex.exp_conj, ← Complex.exp_neg, e, map_mul, Complex.conj_ofReal,
      Complex.conj_I, mul_neg]
  rw [slot_eq_evalAt, Nega.evalAt_auto (h' := by
    rw [← hconj, ← map_pow, slotPt_pow hN]; simp), Nega.evalAt_apply, ← hconj]
  unfold slot
  rw [map_sum]
  refine sum_congr rfl fun i _ => ?_
  rw [map_mul, map_pow]
  congr 1
  exact (Complex.conj_ofReal _).symm

theorem conj_slotPt (hN : N ≠ 0) (j : ℕ) :
    starRingEnd ℂ (slotPt N j) = Complex.exp (Real.pi * Complex.I / N) ^ ((2 * N - 1) * 5 ^ j) := by
  rw [pow_mul]
  unfold slotPt
  rw [map_pow]
  congr 1
  have e : (Real.pi : ℂ) * Complex.I / N = ((Real.pi / N : ℝ) : ℂ) * Complex.I := by
    push_cast; ring
  have h1 := (psi_primitive hN).pow_eq_one
  have h2 : Complex.exp (Real.pi * Complex.I / N) * Complex.exp (Real.pi * Complex.I / N) ^ (2 * N - 1)
      = 1 := by
    rw [← pow_succ', show 2 * N - 1 + 1 = 2 * N by omega, h1]
  rw [← Complex.exp_conj, eq_comm, ← mul_right_inj' (Complex.exp_ne_zero (Real.pi * Complex.I / N)),
    h2, ← Complex.exp_add, e, map_mul, Complex.conj_ofReal, Complex.conj_I, mul_neg, add_neg_cancel,
    Complex.exp_zero]

/-- The slot points and their conjugates are distinct. -/
theorem slotPts_injective {logN : ℕ} (hN : N = 2 ^ logN) (hlog : 1 ≤ logN) :
    Function.Injective fun x : Fin (N / 2) ⊕ Fin (N / 2) =>
      Sum.elim (fun j : Fin (N / 2) => slotPt N j) (fun j : Fin (N / 2) => starRingEnd ℂ (slotPt N j)) x := by
  have hN0 : N ≠ 0 := by rw [hN]; positivity
  have hpow : ∀ a b : ℕ, Complex.exp (Real.pi * Complex.I / N) ^ a =
      Complex.exp (Real.pi * Complex.I / N) ^ b → a ≡ b [MOD 2 * N] := by
    intro a b h
    have hp := psi_primitive hN0
    have hm : ∀ c : ℕ, Complex.exp (Real.pi * Complex.I / N) ^ (c % (2 * N)) =
        Complex.exp (Real.pi * Complex.I / N) ^ c := fun c => by
      conv_rhs => rw [← Nat.mod_add_div c (2 * N), pow_add, pow_mul, hp.pow_eq_one, one_pow, mul_one]
    exact hp.pow_inj (Nat.mod_lt _ (by omega)) (Nat.mod_lt _ (by omega)) (by rw [hm, hm, h])
  have hsame : ∀ j k : Fin (N / 2), slotPt N j = slotPt N k → j = k := by
    intro j k h
    have := (five_pow_congr hN hlog _ _).mp (hpow _ _ h)
    exact Fin.ext (Nat.ModEq.eq_of_lt_of_lt this j.isLt k.isLt)
  have hdiff : ∀ j k : ℕ, slotPt N j ≠ starRingEnd ℂ (slotPt N k) := by
    intro j k h
    rw [conj_slotPt hN0] at h
    have := hpow _ _ h
    have h4 : 4 ∣ 2 * N := by
      obtain ⟨n, rfl⟩ : ∃ n, logN = n + 1 := ⟨logN - 1, by omega⟩
      rw [hN, pow_succ]; exact ⟨2 ^ n, by ring⟩
    have h5 := this.of_dvd h4
    have h6 : ∀ n, 5 ^ n ≡ 1 [MOD 4] := fun n => by
      have : 5 ≡ 1 [MOD 4] := rfl
      simpa using this.pow n
    have h7 : (2 * N - 1) * 5 ^ k ≡ 3 [MOD 4] := by
      have : 2 * N - 1 ≡ 3 [MOD 4] := by
        obtain ⟨c, hc⟩ := h4
        unfold Nat.ModEq; omega
      simpa using this.mul (h6 k)
    have := ((h6 j).symm.trans h5).trans h7
    exact absurd this (by decide)
  rintro (j | j) (k | k) h
  · rw [hsame j k h]
  · exact absurd h (hdiff _ _)
  · exact absurd h.symm (hdiff _ _)
  · rw [hsame j k ((starRingEnd ℂ).injective h)]

open Polynomial in
/-- **C37 (faithfulness).** A real polynomial of degree below `N` is determined by its `N/2`
slots: two polynomials with the same slots are equal. -/
theorem C37_slots_injective [NeZero N] {logN : ℕ} (hN : N = 2 ^ logN) (hlog : 1 ≤ logN)
    (m m' : Nega N ℝ)
    (h : ∀ j < N / 2, slot Complex.ofRealHom m j = slot Complex.ofRealHom m' j) : m = m' := by
  set P : ℂ[X] := ∑ i : Fin N, C (((m - m').coeff i : ℝ) : ℂ) * X ^ i.val with hP
  have hcoef : ∀ k : Fin N, P.coeff k.val = (((m - m').coeff k : ℝ) : ℂ) := by
    intro k
    rw [hP, finsetSum_coeff, Finset.sum_eq_single k]
    · rw [coeff_C_mul, coeff_X_pow, if_pos rfl, mul_one]
    · intro i _ hik
      have : k.val ≠ i.val := fun h => hik (Fin.ext h.symm)
      rw [coeff_C_mul, coeff_X_pow, if_neg this, mul_zero]
    · simp
  by_contra hne
  have hP0 : P ≠ 0 := by
    intro h0
    apply hne
    rw [← sub_eq_zero]
    ext k
    have := hcoef k
    rw [h0, coeff_zero] at this
    exact_mod_cast this.symm
  have hdeg : P.natDegree < N := by
    have : P.degree < N := by
      rw [hP]
      refine lt_of_le_of_lt (degree_sum_le _ _) ?_
      rw [Finset.sup_lt_iff (by exact_mod_cast WithBot.bot_lt_coe N)]
      intro i _
      exact lt_of_le_of_lt (degree_C_mul_X_pow_le _ _) (by exact_mod_cast i.isLt)
    exact (natDegree_lt_iff_degree_lt hP0).mpr this
  have heval : ∀ j < N / 2, P.eval (slotPt N j) = 0 := by
    intro j hj
    have e : P.eval (slotPt N j) = slot Complex.ofRealHom (m - m') j := by
      rw [hP, eval_finsetSum]
      unfold slot
      simp
    rw [e, slot_sub, h j hj, sub_self]
  have hconj : ∀ j < N / 2, P.eval (starRingEnd ℂ (slotPt N j)) = 0 := by
    intro j hj
    have : P.eval (starRingEnd ℂ (slotPt N j)) = starRingEnd ℂ (P.eval (slotPt N j)) := by
      rw [hP, eval_finsetSum, eval_finsetSum, map_sum]
      refine Finset.sum_congr rfl fun i _ => ?_
      simp
    rw [this, heval j hj, map_zero]
  have hroots : Finset.univ.image (fun x : Fin (N / 2) ⊕ Fin (N / 2) =>
      Sum.elim (fun j : Fin (N / 2) => slotPt N j) (fun j : Fin (N / 2) => starRingEnd ℂ (slotPt N j)) x) ⊆ P.roots.toFinset := by
    intro z hz
    obtain ⟨j, _, rfl⟩ := Finset.mem_image.mp hz
    rw [Multiset.mem_toFinset, mem_roots hP0, IsRoot.def]
    rcases j with j | j
    · exact heval j j.isLt
    · exact hconj j j.isLt
  have h1 := Finset.card_le_card hroots
  rw [Finset.card_image_of_injective _ (slotPts_injective hN hlog), Finset.card_univ,
    Fintype.card_sum, Fintype.card_fin] at h1
  have h2 := (Multiset.toFinset_card_le P.roots).trans (card_roots' P)
  have h3 : N / 2 + N / 2 = N := by
    obtain ⟨n, rfl⟩ : ∃ n, logN = n + 1 := ⟨logN - 1, by omega⟩
    rw [hN, pow_succ]; omega
  omega

/-! ### Evaluator operations on slots -/

variable {C : Ctx}

/-- Slots of an integer polynomial. -/
abbrev islot (m : Nega C.N ℤ) (j : ℕ) : ℂ := slot (Int.castRingHom ℂ) m j

theorem slot_noise {W : Nega C.N ℤ} {M : ℤ} (hP : 0 < C.P)
    (h : ∀ x, C.P * |Nega.coeff W x| ≤ M) (j : ℕ) :
    C.P * ‖islot W j‖ ≤ C.N * M := by
  have hP' : (0 : ℝ) < C.P := by exact_mod_cast hP
  have hb : ∀ i, |((W.coeff i : ℤ) : ℝ)| ≤ (M : ℝ) / C.P := by
    intro i
    rw [le_div_iff₀ hP', mul_comm]
    exact_mod_cast h i
  have := mul_le_mul_of_nonneg_left (slot_le hb j) hP'.le
  refine this.trans (le_of_eq ?_)
  field_simp

/-- **C37/C24 (RotateNew on slots).** If the operand carries the integer polynomial `m`, then
`RotateNew(ct, k)` carries a polynomial whose slot `j` is slot `j + k` of `m`, indices modulo
`N/2`, up to the key-switching noise. -/
theorem C37_RotateNew_slots {logN : ℕ} (hN : C.N = 2 ^ logN) (hlog : 1 ≤ logN) (hC : C.Good)
    (hF : C.Fits) {prm : CPar C} {ev : Ev C} (hok : ev.Ok) {ct : CCt C} {L : ℕ} (hL : L < C.nQ)
    (w : ct.ct.Wf L false) (k : ℤ) {rkSet : RotationKeySet (RotKey C)}
    {rk : ℕ → String → RotKey C} {a : ℕ → SwKey C}
    (hk : ∀ idx, rotNeeds prm.crs (slotIdx C.N k) idx →
      KeysAt prm.crs rkSet ct.ct.parties rk a idx) {s : String → Nega C.N ℤ} {D T B : ℤ}
    (heq : ∀ idx, rotNeeds prm.crs (slotIdx C.N k) idx → RotFor ct.ct.parties rk a s T B idx)
    (hD : ∀ k < C.beta L, (2 * blockSetProd C L k : ℤ) ≤ D) (π : Sched)
    {m : Nega C.N ℤ} (hm : ct.ct.Carries s L m) :
    ∃ ev' r m', ev.RotateNew prm ct k rkSet π = .ok (ev', r) ∧ ev'.Ok ∧
      r.ct.Wf L false ∧ r.ct.parties = ct.ct.parties ∧ r.scale = ct.scale ∧
      r.ct.Carries s L m' ∧
      ∀ j, C.P * ‖islot m' j - islot m (((j + k) % (C.N / 2 : ℕ)).toNat)‖ ≤
        C.N * ((rotCount prm.crs (slotIdx C.N k) *
          (ct.ct.parties.card * extNoise C L D T B) : ℤ) : ℝ) := by
  obtain ⟨ev', r, W, h1, h2, h3, h4, h5, h6, h7⟩ :=
    C24_RotateNew hN hlog hC hF hok hL w k hk heq hD π
  refine ⟨ev', r, Nega.auto (5 ^ slotIdx C.N k) m + W, h1, h2, h3, h4, h5, ?_, fun j => ?_⟩
  · intro i hi
    rw [h7 i hi, hm i hi, map_add, Nega.auto_red]
  · have hpos : 0 < C.N / 2 := by
      obtain ⟨n, rfl⟩ : ∃ n, logN = n + 1 := ⟨logN - 1, by omega⟩
      rw [hN, pow_succ]; have : 0 < 2 ^ n := by positivity
      omega
    have e : ((j + k) % (C.N / 2 : ℕ)).toNat = (j + slotIdx C.N k) % (C.N / 2) := by
      have e1 := slotIdx_cast hpos k
      have e2 : ((j + k) % (C.N / 2 : ℕ)) = (((j + slotIdx C.N k) % (C.N / 2) : ℕ) : ℤ) := by
        rw [Int.natCast_mod, Nat.cast_add, e1, Int.add_emod_emod]
      rw [e2]; exact Int.toNat_natCast _
    rw [e, islot, slot_add, C37_rotation hN hlog, add_sub_cancel_left]
    exact slot_noise hC.P_pos h6 j

/-- The slots of an integer polynomial are those of the same polynomial over the reals. -/
theorem islot_eq (m : Nega C.N ℤ) (j : ℕ) :
    islot m j = slot Complex.ofRealHom (Nega.map (Int.castRingHom ℝ) m) j := by
  unfold islot slot
  refine sum_congr rfl fun i _ => ?_
  simp

/-- **C37/C27 (ConjugateNew on slots).** At the maximum level `ConjugateNew` conjugates every
slot up to the key-switching noise. -/
theorem C37_ConjugateNew_slots {logN : ℕ} (hN : C.N = 2 ^ logN) (hC : C.Good) (hF : C.Fits)
    {prm : CPar C} {ev : Ev C} (hok : ev.Ok) {ct : CCt C} (w : ct.ct.Wf C.lq false)
    (hL : C.lq < C.nQ) {ckSet : KeySet (ConjKey C)} {ck : String → ConjKey C} {u : SwKey C}
    (hck : ∀ id ∈ ct.ct.parties, ckSet.get id = .ok (ck id)) (hu : prm.crs.get? (-2) = some u)
    {s : String → Nega C.N ℤ} {e : String → ℕ → Nega C.N ℤ}
    (hk : ∀ id ∈ ct.ct.parties, SwEq (ck id).value u (s id) (Nega.auto (2 * C.N - 1) (s id)) (e id))
    {D T B : ℤ} (hD : ∀ k < C.beta C.lq, (2 * blockSetProd C C.lq k : ℤ) ≤ D)
    (hs : ∀ id ∈ ct.ct.parties, (s id).Bdd T) (he : ∀ id ∈ ct.ct.parties, ∀ k, (e id k).Bdd B)
    (π : Sched) {m : Nega C.N ℤ} (hm : ct.ct.Carries s C.lq m) :
    ∃ ev' r m', ev.ConjugateNew prm ct ckSet π = .ok (ev', r) ∧ ev'.Ok ∧
      r.ct.Wf C.lq false ∧ r.ct.parties = ct.ct.parties ∧ r.scale = ct.scale ∧
      r.ct.Carries s C.lq m' ∧
      ∀ j, C.P * ‖islot m' j - starRingEnd ℂ (islot m j)‖ ≤
        C.N * ((ct.ct.parties.card * extNoise C C.lq D T B : ℤ) : ℝ) := by
  obtain ⟨ev', r, W, h1, h2, h3, h4, h5, h6, h7⟩ :=
    C27_ConjugateNew hN hC hF hok w hL hck hu hk hD hs he π
  refine ⟨ev', r, Nega.auto (2 * C.N - 1) m + W, h1, h2, h3, h4, h5, ?_, fun j => ?_⟩
  · intro i hi
    rw [h7 i hi, hm i hi, map_add, Nega.auto_red]
  · rw [islot, slot_add]
    have : slot (Int.castRingHom ℂ) (Nega.auto (2 * C.N - 1) m) j = starRingEnd ℂ (islot m j) := by
      have := C37_conjugation (Nega.map (Int.castRingHom ℝ) m) j
      rw [← islot_eq, Nega.auto_map, ← islot_eq] at this
      exact this
    rw [this, add_sub_cancel_left]
    exact slot_noise hC.P_pos h6 j

/-- Every ciphertext carries an integer polynomial (Chinese remainder theorem). -/
theorem exists_carries (hC : C.Good) (ct : Ct C) (s : String → Nega C.N ℤ) {L : ℕ} (hL : L < C.nQ) :
    ∃ m, ct.Carries s L m := by
  have h : ∀ j, ∃ k : ℕ, ∀ i ∈ range (L + 1), k ≡ ((ct.phase s i).coeff j).val [MOD C.q i] := by
    intro j
    obtain ⟨k, hk⟩ := Nat.chineseRemainderOfFinset (fun i => ((ct.phase s i).coeff j).val) C.q
      (range (L + 1)) (fun i _ => (hC.posQ i).ne') (fun a ha b hb hab => by
        rw [mem_coe, mem_range] at ha hb
        exact hC.copQ a b (by omega) (by omega) hab)
    exact ⟨k, hk⟩
  choose k hk using h
  refine ⟨⟨fun j => k j⟩, fun i hi => ?_⟩
  ext j
  have : NeZero (C.q i) := ⟨(hC.posQ i).ne'⟩
  rw [Nega.coeff_red]
  have := (ZMod.natCast_eq_natCast_iff _ _ _).mpr (hk j i (mem_range.mpr (by omega)))
  rw [ZMod.natCast_zmod_val] at this
  rw [← this]
  simp

/-- The rescaling error: `Σ_k (q_L ⋯ q_{L-k+1}) (q_{L-k}/2)(1 + cNT)` for `c` parties. -/
def rescaleErr (C : Ctx) (L n : ℕ) (c : ℕ) (T : ℤ) : ℤ :=
  ∑ k ∈ range n, (∏ m ∈ range k, C.q (L - m) : ℕ) *
    (((C.q (L - k) / 2 : ℕ) : ℤ) * (1 + c * C.N * T))

theorem rescaleErr_bdd {L n c : ℕ} {T : ℤ} {e : ℕ → Nega C.N ℤ}
    (h : ∀ k < n, Nega.Bdd (e k) (((C.q (L - k) / 2 : ℕ) : ℤ) * (1 + c * C.N * T))) :
    Nega.Bdd (∑ k ∈ range n, ((∏ m ∈ range k, C.q (L - m) : ℕ) : Nega C.N ℤ) * e k)
      (rescaleErr C L n c T) := by
  intro x
  rw [Nega.coeff_sum]
  refine (abs_sum_le_sum_abs _ _).trans (sum_le_sum fun k hk => ?_)
  rw [Nega.coeff_natCast_mul, abs_mul, Nat.abs_cast]
  exact mul_le_mul_of_nonneg_left (h k (mem_range.mp hk) x) (Int.natCast_nonneg _)

theorem slot_natCast_mul [NeZero N] (k : ℕ) (m : Nega N ℤ) (j : ℕ) :
    slot (Int.castRingHom ℂ) ((k : Nega N ℤ) * m) j = k * slot (Int.castRingHom ℂ) m j := by
  unfold slot
  rw [mul_sum]
  refine sum_congr rfl fun i _ => ?_
  rw [Nega.coeff_natCast_mul]
  simp [mul_assoc]

/-- **C18 on slots.** Rescaling divides every slot by the dropped moduli, up to the rounding
error. -/
theorem C18_Rescale_slots (hC : C.Good) {prm : CPar C} {ev : Ev C} {ct : CCt C} {ms : ℚ} {L n : ℕ}
    (h : ct.ct.Wf L false) (hL : L < C.nQ) (h1 : 0 < ms) (h2 : ct.scale ≠ 0) (h3 : 0 < L)
    (hn : DropCount prm.fl C.q ms ct.scale L n) {s : String → Nega C.N ℤ} {T : ℤ}
    (hT : ∀ id ∈ ct.ct.parties, Nega.Bdd (s id) T) (π : Sched) {m : Nega C.N ℤ}
    (hm : ct.ct.Carries s L m) :
    ∃ ev' r m', ev.rescaleSelf prm ct ms π = .ok (none, ev', r) ∧ r.ct.Wf (L - n) false ∧
      r.ct.Carries s (L - n) m' ∧
      ∀ j, ‖((∏ m ∈ range n, C.q (L - m) : ℕ) : ℂ) * islot m' j - islot m j‖ ≤
        C.N * (rescaleErr C L n ct.ct.parties.card T : ℝ) := by
  obtain ⟨ev', r, e1, w, e, hb, _, hc⟩ := C18_Rescale hC (ev := ev) h hL h1 h2 h3 hn hT π
  obtain ⟨m', hm', heq⟩ := hc m hm
  refine ⟨ev', r, m', e1, w, hm', fun j => ?_⟩
  rw [← slot_natCast_mul, heq, islot, slot_add, add_sub_cancel_left]
  exact slot_le (fun i => by exact_mod_cast rescaleErr_bdd hb i) j

/-- **C21 on slots.** The slots of the product ciphertext, times the dropped moduli, are the
products of the operands' slots, up to relinearization noise and rounding error. -/
theorem C21_MulRelinNew_slots (hC : C.Good) (hF : C.Fits) {prm : CPar C} {ev : Ev C} (hok : ev.Ok)
    {a b : CCt C} {la lb n : ℕ} (same : Bool) (hsame : same = true → a = b) (wa : a.ct.Wf la false)
    (wb : b.ct.Wf lb false) (hla : la < C.nQ) (hlb : lb < C.nQ)
    {cr u : SwKey C} (hu : prm.crs.get? (-1) = some u) {rlk : RlkSet C} {rk : String → RelinKey C}
    (hrk : RlkFor rlk (a.ct.parties ∪ b.ct.parties) rk)
    {s r : String → Nega C.N ℤ} {eb ed er : String → ℕ → Nega C.N ℤ}
    (hk : RelinFor (a.ct.parties ∪ b.ct.parties) rk cr u s r eb ed er) {D T B : ℤ}
    (hD : digitMax C D) (hb : RelinBdd C (a.ct.parties ∪ b.ct.parties) s r eb ed er T B)
    (hn : RescaleBy prm.fl C.q prm.scale (prm.fl.rnd (a.scale * b.scale)) (min la lb) n)
    (π : Sched) {ma mb : Nega C.N ℤ} (hma : a.ct.Carries s la ma) (hmb : b.ct.Carries s lb mb) :
    ∃ ev' rlk' out m', ev.MulRelinNew prm a b same rlk π = .ok (ev', rlk', out) ∧
      out.ct.Wf (min la lb - n) false ∧ out.ct.parties = a.ct.parties ∪ b.ct.parties ∧
      out.scale = scaleSeq prm.fl C.q (min la lb) (prm.fl.rnd (a.scale * b.scale)) n ∧
      out.ct.Carries s (min la lb - n) m' ∧
      ∀ j, C.P * ‖((∏ m ∈ range n, C.q (min la lb - m) : ℕ) : ℂ) * islot m' j -
          islot ma j * islot mb j‖ ≤
        C.N * ((mulNoise C (min la lb) a.ct.parties.card b.ct.parties.card D D D T B +
          C.P * rescaleErr C (min la lb) n (a.ct.parties ∪ b.ct.parties).card T : ℤ) : ℝ) := by
  obtain ⟨ev', rlk', out, W, h1, h2, h3, h4, h5, e, h6, _, h7⟩ :=
    C21_MulRelinNew hC hF hok same hsame wa wb hla hlb hu hrk hk hD hb hn π
  obtain ⟨m', hm', heq⟩ := h7 ma mb (fun i hi => hma i (hi.trans (min_le_left _ _)))
    (fun i hi => hmb i (hi.trans (min_le_right _ _)))
  refine ⟨ev', rlk', out, m', h1, h2, h3, h4, hm', fun j => ?_⟩
  rw [← slot_natCast_mul, heq, slot_add, slot_mul, add_sub_cancel_left]
  refine slot_noise hC.P_pos (fun x => ?_) j
  rw [Nega.coeff_add]
  calc (C.P : ℤ) * |_ + _| ≤ C.P * (|_| + |_|) :=
        mul_le_mul_of_nonneg_left (abs_add_le _ _) (Int.natCast_nonneg _)
    _ ≤ _ := by
        rw [mul_add]
        exact add_le_add (h5 x)
          (mul_le_mul_of_nonneg_left (rescaleErr_bdd h6 x) (Int.natCast_nonneg _))

/-- **C20 on slots.** Multiplication by a plaintext polynomial multiplies the slots. -/
theorem C20_MulPtxtNew_slots (hC : C.Good) {prm : CPar C} {ev : Ev C} {ct : CCt C} {L n : ℕ}
    (h : ct.ct.Wf L false) (hL : L < C.nQ) (pt : RQ C) (ptScale : ℚ)
    (hn : RescaleBy prm.fl C.q prm.scale (prm.fl.rnd (ct.scale * ptScale)) L n)
    {s : String → Nega C.N ℤ} {T : ℤ} (hT : ∀ id ∈ ct.ct.parties, Nega.Bdd (s id) T) (π : Sched)
    {m mp : Nega C.N ℤ} (hm : ct.ct.Carries s L m)
    (hmp : ∀ i ≤ L, pt.elem i = Nega.red (C.q i) mp) :
    ∃ ev' r m', ev.MulPtxtNew prm ct pt ptScale π = .ok (ev', r) ∧ r.ct.Wf (L - n) false ∧
      r.ct.parties = ct.ct.parties ∧
      r.scale = scaleSeq prm.fl C.q L (prm.fl.rnd (ct.scale * ptScale)) n ∧
      r.ct.Carries s (L - n) m' ∧
      ∀ j, ‖((∏ m ∈ range n, C.q (L - m) : ℕ) : ℂ) * islot m' j - islot m j * islot mp j‖ ≤
        C.N * (rescaleErr C L n ct.ct.parties.card T : ℝ) := by
  obtain ⟨ev', r, e1, w, h3, h4, e, hb, _, hc⟩ := C20_MulPtxtNew hC (ev := ev) h hL pt ptScale hn hT π
  obtain ⟨m', hm', heq⟩ := hc m mp hm hmp
  refine ⟨ev', r, m', e1, w, h3, h4, hm', fun j => ?_⟩
  rw [← slot_natCast_mul, heq, slot_add, slot_mul, add_sub_cancel_left]
  exact slot_le (fun i => by exact_mod_cast rescaleErr_bdd hb i) j

/-- **C11, C12 on slots.** -/
theorem C11_C12_slots (hC : C.Good) {prm : CPar C} {ev : Ev C} {a b : CCt C} {la lb : ℕ}
    (I : BinIn prm ev a b la lb) (hs : a.scale = b.scale) (π : Sched) {s : String → Nega C.N ℤ}
    {ma mb : Nega C.N ℤ} (hma : a.ct.Carries s la ma) (hmb : b.ct.Carries s lb mb) :
    (∃ ev' r m', ev.AddNew prm a b π = .ok (ev', r) ∧ r.ct.Carries s (min la lb) m' ∧
      ∀ j, islot m' j = islot ma j + islot mb j) ∧
    ∃ ev' r m', ev.SubNew prm a b π = .ok (ev', r) ∧ r.ct.Carries s (min la lb) m' ∧
      ∀ j, islot m' j = islot ma j - islot mb j := by
  obtain ⟨ev1, r1, e1, h1⟩ := C11_AddNew hC I hs π
  obtain ⟨ev2, r2, e2, h2⟩ := C12_SubNew hC I hs π
  refine ⟨⟨ev1, r1, ma + mb, e1, fun i hi => ?_, fun j => slot_add _ _ _ _⟩,
    ev2, r2, ma - mb, e2, fun i hi => ?_, fun j => slot_sub _ _ _ _⟩
  · rw [h1 s i hi, hma i (hi.trans (min_le_left _ _)), hmb i (hi.trans (min_le_right _ _)), map_add]
  · rw [h2 s i hi, hma i (hi.trans (min_le_left _ _)), hmb i (hi.trans (min_le_right _ _)), map_sub]

end MK
