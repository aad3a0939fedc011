import Verif.Props.Slots
import Verif.Props.CDec
import Mathlib.LinearAlgebra.Complex.FiniteDimensional
import Mathlib.LinearAlgebra.FiniteDimensional.Lemmas
import Mathlib.Algebra.Order.Round
import Mathlib.Algebra.Field.GeomSum

/-!
# The canonical embedding: size of coefficients, existence of encodings

Small slots mean small coefficients, and every slot vector is the slot vector of a real polynomial.
The contract that the end-to-end theorems put on lattigo's encoder (`Encoder.Accurate`) is met by
rounding the coefficients of that polynomial (`stdEncoder`).
-/

noncomputable section

namespace MK

open Finset Complex

variable {N : ℕ}

/-- Every `N`-th root of `-1` is a slot point or the conjugate of one. -/
theorem root_is_slotPt {logN : ℕ} (hN : N = 2 ^ logN) (hlog : 1 ≤ logN) {x : ℂ} (hx : x ^ N = -1) :
    ∃ j < N / 2, x = slotPt N j ∨ x = starRingEnd ℂ (slotPt N j) := by
  have hN0 : N ≠ 0 := by rw [hN]; positivity
  have hhalf : N / 2 + N / 2 = N := by
    obtain ⟨k, rfl⟩ : ∃ k, logN = k + 1 := ⟨logN - 1, by omega⟩
    rw [hN, pow_succ]; omega
  set ζ := Complex.exp (Real.pi * Complex.I / N) with hζ
  have hp := psi_primitive hN0
  have hmem : ∀ y : ℂ, y ^ N = -1 →
      y ∈ (univ : Finset (Fin N)).image fun k : Fin N => ζ ^ (2 * k.val + 1) := by
    intro y hy
    have h1 : y ^ (2 * N) = 1 := by rw [mul_comm, pow_mul, hy]; norm_num
    have : NeZero (2 * N) := ⟨by omega⟩
    obtain ⟨e, he, rfl⟩ := hp.eq_pow_of_pow_eq_one h1
    rw [← pow_mul, mul_comm e, pow_mul, psi_pow hN0] at hy
    rcases Nat.even_or_odd e with h | h
    · rw [h.neg_one_pow] at hy; norm_num at hy
    · obtain ⟨k, rfl⟩ := h
      exact mem_image.mpr ⟨⟨k, by omega⟩, mem_univ _, rfl⟩
  have hsub : (univ : Finset (Fin (N / 2) ⊕ Fin (N / 2))).image (fun x : Fin (N / 2) ⊕ Fin (N / 2) =>
      Sum.elim (fun j : Fin (N / 2) => slotPt N j) (fun j : Fin (N / 2) => starRingEnd ℂ (slotPt N j)) x) ⊆
      (univ : Finset (Fin N)).image fun k : Fin N => ζ ^ (2 * k.val + 1) := by
    intro y hy
    obtain ⟨j, -, rfl⟩ := mem_image.mp hy
    refine hmem _ ?_
    rcases j with j | j
    · exact slotPt_pow hN0 j
    · show starRingEnd ℂ (slotPt N j) ^ N = -1
      rw [← map_pow, slotPt_pow hN0 j]; simp
  have heq := eq_of_subset_of_card_le hsub (by
    rw [card_image_of_injective _ (slotPts_injective hN hlog)]
    refine card_image_le.trans ?_
    simp only [card_univ, Fintype.card_fin, Fintype.card_sum]
    omega)
  have := hmem x hx
  rw [← heq] at this
  obtain ⟨j, -, rfl⟩ := mem_image.mp this
  rcases j with j | j
  · exact ⟨j, j.isLt, Or.inl rfl⟩
  · exact ⟨j, j.isLt, Or.inr rfl⟩

theorem slotPt_root_sum {N : ℕ} (hN : N ≠ 0) {t i : Fin N} :
    ∑ k ∈ range N, (Complex.exp (Real.pi * Complex.I / N) ^ (2 * k + 1)) ^ (t.val + (2 * N - i.val)) =
      if t = i then (N : ℂ) else 0 := by
  set ζ := Complex.exp (Real.pi * Complex.I / N) with hζ
  have hp := psi_primitive hN
  set d := t.val + (2 * N - i.val) with hd
  have e : ∀ k, (ζ ^ (2 * k + 1)) ^ d = ζ ^ d * (ζ ^ (2 * d)) ^ k := fun k => by
    rw [← pow_mul, ← pow_mul, ← pow_add]; congr 1; ring
  simp only [e, ← mul_sum]
  have ht := t.isLt
  have hi := i.isLt
  split_ifs with h
  · subst h
    have hd' : d = 2 * N := by omega
    have h1 : ζ ^ d = 1 := by rw [hd']; exact hp.pow_eq_one
    have h2 : ζ ^ (2 * d) = 1 := by rw [mul_comm, pow_mul, h1, one_pow]
    simp [h1, h2]
  · have h1 : ζ ^ (2 * d) ≠ 1 := by
      intro h1
      have h2 := hp.dvd_of_pow_eq_one _ h1
      have h3 : N ∣ d := Nat.dvd_of_mul_dvd_mul_left two_pos h2
      obtain ⟨c, hc⟩ := h3
      have : t.val ≠ i.val := fun h' => h (Fin.ext h')
      have c1 : 1 < c := by
        by_contra hcon
        have : c ≤ 1 := by omega
        have : N * c ≤ N * 1 := Nat.mul_le_mul_left _ this
        omega
      have c2 : c < 3 := by
        by_contra hcon
        have : 3 ≤ c := by omega
        have : N * 3 ≤ N * c := Nat.mul_le_mul_left _ this
        omega
      have : c = 2 := by omega
      subst this
      omega
    rw [geom_sum_eq h1]
    have : (ζ ^ (2 * d)) ^ N = 1 := by
      rw [← pow_mul, show 2 * d * N = 2 * N * d by ring, pow_mul, hp.pow_eq_one, one_pow]
    rw [this]; simp

/-- Coefficients are bounded by the largest slot. -/
theorem coeff_le_slots {logN : ℕ} (hN : N = 2 ^ logN) (hlog : 1 ≤ logN) (m : Nega N ℝ) {X : ℝ}
    (h : ∀ j < N / 2, ‖slot Complex.ofRealHom m j‖ ≤ X) (i : Fin N) : |m.coeff i| ≤ X := by
  have hN0 : N ≠ 0 := by rw [hN]; positivity
  set ζ := Complex.exp (Real.pi * Complex.I / N) with hζ
  set P : ℂ → ℂ := fun x => ∑ t : Fin N, ((m.coeff t : ℝ) : ℂ) * x ^ t.val with hP
  have hPx : ∀ k < N, ‖P (ζ ^ (2 * k + 1))‖ ≤ X := by
    intro k _
    obtain ⟨j, hj, hx | hx⟩ := root_is_slotPt (x := ζ ^ (2 * k + 1)) hN hlog (by
      rw [← pow_mul, mul_comm, pow_mul, psi_pow hN0]; exact (odd_two_mul_add_one k).neg_one_pow)
    · rw [hx]; exact h j hj
    · rw [hx]
      have : P (starRingEnd ℂ (slotPt N j)) = starRingEnd ℂ (slot Complex.ofRealHom m j) := by
        simp only [hP, slot, map_sum, map_mul, map_pow]
        refine sum_congr rfl fun t _ => ?_
        congr 1
        exact (Complex.conj_ofReal _).symm
      rw [this, RCLike.norm_conj]
      exact h j hj
  have key : ∑ k ∈ range N, P (ζ ^ (2 * k + 1)) * (ζ ^ (2 * k + 1)) ^ (2 * N - i.val) =
      N * (m.coeff i : ℂ) := by
    simp only [hP, sum_mul]
    rw [sum_comm]
    have : ∀ t : Fin N, ∑ k ∈ range N, ((m.coeff t : ℝ) : ℂ) * (ζ ^ (2 * k + 1)) ^ t.val *
        (ζ ^ (2 * k + 1)) ^ (2 * N - i.val) = if t = i then N * (m.coeff i : ℂ) else 0 := by
      intro t
      simp only [mul_assoc, ← pow_add, ← mul_sum]
      rw [slotPt_root_sum hN0]
      split_ifs with hti
      · rw [hti]; ring
      · ring
    simp only [this, sum_ite_eq', mem_univ, if_true]
  have hz1 : ‖ζ‖ = 1 := by
    have : Real.pi * Complex.I / N = ((Real.pi / N : ℝ) : ℂ) * Complex.I := by push_cast; ring
    rw [hζ, this, Complex.norm_exp_ofReal_mul_I]
  have hle : ‖(N : ℂ) * (m.coeff i : ℂ)‖ ≤ N * X := by
    rw [← key]
    refine (norm_sum_le _ _).trans ?_
    calc ∑ k ∈ range N, ‖P (ζ ^ (2 * k + 1)) * (ζ ^ (2 * k + 1)) ^ (2 * N - i.val)‖
        ≤ ∑ _k ∈ range N, X := by
          refine sum_le_sum fun k hk => ?_
          rw [norm_mul, norm_pow, norm_pow, hz1, one_pow, one_pow, mul_one]
          exact hPx k (mem_range.mp hk)
      _ = N * X := by simp
  rw [norm_mul, Complex.norm_natCast, Complex.norm_real, Real.norm_eq_abs] at hle
  exact le_of_mul_le_mul_left hle (by exact_mod_cast Nat.pos_of_ne_zero hN0)

/-- The slots as a real-linear map. -/
def slotsLin (N : ℕ) : (Fin N → ℝ) →ₗ[ℝ] (Fin (N / 2) → ℂ) where
  toFun c := fun j => slot Complex.ofRealHom (⟨c⟩ : Nega N ℝ) j
  map_add' a b := by
    funext j
    simp only [slot, Pi.add_apply, map_add, add_mul, sum_add_distrib]
  map_smul' r a := by
    funext j
    simp only [slot, Pi.smul_apply, smul_eq_mul, map_mul, RingHom.id_apply, Complex.real_smul, mul_sum,
      mul_assoc]
    rfl

/-- Every slot vector belongs to a real polynomial. -/
theorem slots_surjective {logN : ℕ} (hN : N = 2 ^ logN) (hlog : 1 ≤ logN) (x : Fin (N / 2) → ℂ) :
    ∃ m : Nega N ℝ, ∀ j : Fin (N / 2), slot Complex.ofRealHom m j = x j := by
  have hN0 : N ≠ 0 := by rw [hN]; positivity
  have : NeZero N := ⟨hN0⟩
  have hinj : Function.Injective (slotsLin N) := by
    intro a b hab
    have := C37_slots_injective hN hlog (⟨a⟩ : Nega N ℝ) ⟨b⟩ fun j hj => congrFun hab ⟨j, hj⟩
    exact congrArg Nega.coeff this
  have hdim : Module.finrank ℝ (Fin N → ℝ) = Module.finrank ℝ (Fin (N / 2) → ℂ) := by
    rw [Module.finrank_fin_fun, Module.finrank_pi_fintype]
    simp only [Complex.finrank_real_complex, sum_const, card_univ, Fintype.card_fin, smul_eq_mul]
    obtain ⟨k, rfl⟩ : ∃ k, logN = k + 1 := ⟨logN - 1, by omega⟩
    rw [hN, pow_succ]; omega
  obtain ⟨c, hc⟩ := (LinearMap.injective_iff_surjective_of_finrank_eq_finrank hdim).mp hinj x
  exact ⟨⟨c⟩, fun j => congrFun hc j⟩

/-! ## The encoder contract -/

variable {C : Ctx}

/-- What the end-to-end theorems ask of lattigo's encoder: messages of `n` slots of size at most
`M` are encoded at `scale` with slot error at most `ε`, and a polynomial whose slots are, divided by
the scale, at most `M` is decoded into `n` numbers with error at most `δ`. -/
structure Encoder.Accurate (E : Encoder C (List ℂ)) (scale : ℚ) (n : ℕ) (M ε δ : ℝ) : Prop where
  enc : ∀ l : List ℂ, l.length = n → (∀ x ∈ l, ‖x‖ ≤ M) → ∀ i < n,
    ‖islot (E.encode l scale) i / scale - l.getD i 0‖ ≤ ε
  len : ∀ m sc, (E.decode m sc).length = n
  dec : ∀ (m : Nega C.N ℤ) (sc : ℚ), 0 < sc → (∀ i < n, ‖islot m i / sc‖ ≤ M) → ∀ i < n,
    ‖(E.decode m sc).getD i 0 - islot m i / sc‖ ≤ δ

open Classical in
/-- An encoder: the coefficients of the real polynomial with the given slots, rounded. -/
def stdEncoder (C : Ctx) : Encoder C (List ℂ) where
  encode l sc :=
    if h : ∃ m : Nega C.N ℝ, ∀ j < C.N / 2, slot Complex.ofRealHom m j = sc * l.getD j 0 then
      ⟨fun i => round (h.choose.coeff i)⟩
    else 0
  decode m sc := (List.range (C.N / 2)).map fun i => islot m i / sc

theorem stdEncoder_accurate {logN : ℕ} (hN : C.N = 2 ^ logN) (hlog : 1 ≤ logN) {scale : ℚ}
    (hs : 0 < scale) (M : ℝ) :
    (stdEncoder C).Accurate scale (C.N / 2) M (C.N / (2 * scale)) 0 := by
  have hN0 : C.N ≠ 0 := by rw [hN]; positivity
  have : NeZero C.N := ⟨hN0⟩
  refine ⟨fun l _ _ i hi => ?_, fun m sc => by simp [stdEncoder], fun m sc _ _ i hi => ?_⟩
  · have hex : ∃ m : Nega C.N ℝ, ∀ j < C.N / 2, slot Complex.ofRealHom m j = scale * l.getD j 0 := by
      obtain ⟨m, hm⟩ := slots_surjective hN hlog fun j : Fin (C.N / 2) => (scale : ℂ) * l.getD j 0
      exact ⟨m, fun j hj => hm ⟨j, hj⟩⟩
    have hsc : (0 : ℝ) < scale := by exact_mod_cast hs
    have hsc' : (scale : ℂ) ≠ 0 := by exact_mod_cast hs.ne'
    simp only [stdEncoder, dif_pos hex]
    set m := hex.choose with hmdef
    have hm := hex.choose_spec i hi
    have e : islot (⟨fun i => round (m.coeff i)⟩ : Nega C.N ℤ) i - scale * l.getD i 0 =
        ∑ t : Fin C.N, (((round (m.coeff t) : ℝ) - m.coeff t : ℝ) : ℂ) * slotPt C.N i ^ t.val := by
      rw [← hm]
      unfold islot slot
      rw [← sum_sub_distrib]
      refine sum_congr rfl fun t _ => ?_
      rw [← sub_mul]
      congr 1
      push_cast
      rfl
    have hpt : ‖slotPt C.N i‖ = 1 := by
      unfold slotPt
      have : Real.pi * Complex.I / C.N = ((Real.pi / C.N : ℝ) : ℂ) * Complex.I := by push_cast; ring
      rw [norm_pow, this, Complex.norm_exp_ofReal_mul_I, one_pow]
    have hb : ‖islot (⟨fun i => round (m.coeff i)⟩ : Nega C.N ℤ) i - scale * l.getD i 0‖ ≤ C.N * (1 / 2) := by
      rw [e]
      refine (norm_sum_le _ _).trans ?_
      calc _ ≤ ∑ _t : Fin C.N, (1 / 2 : ℝ) := by
            refine sum_le_sum fun t _ => ?_
            rw [norm_mul, norm_pow, hpt, one_pow, mul_one, Complex.norm_real, Real.norm_eq_abs, abs_sub_comm]
            exact abs_sub_round _
        _ = C.N * (1 / 2) := by simp
    have e2 : islot (⟨fun i => round (m.coeff i)⟩ : Nega C.N ℤ) i / (scale : ℂ) - l.getD i 0 =
        (islot (⟨fun i => round (m.coeff i)⟩ : Nega C.N ℤ) i - scale * l.getD i 0) / scale := by
      field_simp
    have hns : ‖(scale : ℂ)‖ = scale := by
      have : (scale : ℂ) = ((scale : ℝ) : ℂ) := by push_cast; rfl
      rw [this, Complex.norm_real, Real.norm_eq_abs, abs_of_pos hsc]
    rw [e2, norm_div, hns]
    calc _ ≤ (C.N * (1 / 2) : ℝ) / scale := by gcongr
      _ = C.N / (2 * scale) := by field_simp
  · have : (((List.range (C.N / 2)).map fun i => islot m i / (sc : ℂ)).getD i 0) = islot m i / sc := by
      rw [List.getD_eq_getElem _ _ (by simpa using hi)]; simp
    show ‖(((List.range (C.N / 2)).map fun i => islot m i / (sc : ℂ)).getD i 0) - islot m i / sc‖ ≤ 0
    rw [this, sub_self, norm_zero]

end MK
