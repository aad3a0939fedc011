import Verif.Props.ToyCsv

/-!
# C77: means and standard deviations of lr/toyData.csv
-/

noncomputable section

namespace MK.Lr

open Finset
open Utils (readData)

/-! ## Perturbation -/

/-- Mean of `n` numbers. -/
def meanOf (x : ℕ → ℝ) (n : ℕ) : ℝ := (∑ i ∈ range n, x i) / n

/-- Standard deviation of `n` numbers with divisor `den`. -/
def stdOf (x : ℕ → ℝ) (n : ℕ) (den : ℝ) : ℝ := Real.sqrt ((∑ i ∈ range n, (x i - meanOf x n) ^ 2) / den)

theorem meanOf_close {x y : ℕ → ℝ} {n : ℕ} (hn : 0 < n) {η : ℝ} (h : ∀ i < n, |y i - x i| ≤ η) :
    |meanOf y n - meanOf x n| ≤ η := by
  have hn' : (0 : ℝ) < n := by exact_mod_cast hn
  rw [meanOf, meanOf, ← sub_div, abs_div, abs_of_pos hn', div_le_iff₀ hn', ← sum_sub_distrib]
  refine (abs_sum_le_sum_abs _ _).trans ?_
  refine (sum_le_sum fun i hi => h i (mem_range.mp hi)).trans ?_
  rw [sum_const, card_range, nsmul_eq_mul, mul_comm]

/-- Moving every number by at most `η` moves the standard deviation by at most `2 η √(n / den)`. -/
theorem stdOf_close {x y : ℕ → ℝ} {n : ℕ} (hn : 0 < n) {η den : ℝ} (hden : 0 < den) (hη : 0 ≤ η)
    (h : ∀ i < n, |y i - x i| ≤ η) :
    |stdOf y n den - stdOf x n den| ≤ 2 * η * Real.sqrt (n / den) := by
  have hm := meanOf_close hn h
  have key : ∀ z : ℕ → ℝ, stdOf z n den =
      ‖(WithLp.toLp 2 (fun i : Fin n => z i - meanOf z n) : EuclideanSpace ℝ (Fin n))‖ / Real.sqrt den := by
    intro z
    rw [EuclideanSpace.norm_eq, ← Real.sqrt_div' _ hden.le, stdOf]
    congr 2
    rw [sum_range fun i => (z i - meanOf z n) ^ 2]
    exact sum_congr rfl fun i _ => by rw [Real.norm_eq_abs, sq_abs]
  have hs : 0 < Real.sqrt den := Real.sqrt_pos.mpr hden
  rw [key y, key x, ← sub_div, abs_div, abs_of_pos hs, div_le_iff₀ hs, Real.sqrt_div' _ hden.le,
    mul_assoc, div_mul_cancel₀ _ hs.ne']
  refine (abs_norm_sub_norm_le _ _).trans ?_
  rw [← WithLp.toLp_sub, EuclideanSpace.norm_eq]
  have hb : ∑ i : Fin n, ‖(WithLp.toLp 2 ((fun i : Fin n => y i - meanOf y n) -
      fun i : Fin n => x i - meanOf x n) : EuclideanSpace ℝ (Fin n)).ofLp i‖ ^ 2 ≤ (2 * η) ^ 2 * n := by
    have : ∀ i ∈ (univ : Finset (Fin n)), ‖(WithLp.toLp 2 ((fun i : Fin n => y i - meanOf y n) -
        fun i : Fin n => x i - meanOf x n) : EuclideanSpace ℝ (Fin n)).ofLp i‖ ^ 2 ≤ (2 * η) ^ 2 := by
      intro i _
      refine pow_le_pow_left₀ (norm_nonneg _) ?_ 2
      show |(y i - meanOf y n) - (x i - meanOf x n)| ≤ 2 * η
      have h1 := h i i.2
      rw [abs_le] at h1 hm ⊢
      constructor <;> linarith [h1.1, h1.2, hm.1, hm.2]
    refine (sum_le_sum this).trans ?_
    rw [sum_const, card_univ, Fintype.card_fin, nsmul_eq_mul, mul_comm]
  refine (Real.sqrt_le_sqrt hb).trans ?_
  rw [Real.sqrt_mul (sq_nonneg _), Real.sqrt_sq (by linarith)]

/-! ## The columns -/

theorem csv_s1 {j : ℕ} (hj : j < 20) :
    ∑ i ∈ range 512, csvCell (csvRec i) j = csvS1.getD j 0 := by
  rw [show (fun i => csvCell (csvRec i) j) = fun i => (csvCell · j) (toyCsv.getD i 0) from rfl,
    sum_getD (csvCell · j) toyCsv 512 (by rw [toyCsv_length]; norm_num), ← csvS1_eq]
  rw [List.getD_eq_getElem?_getD, List.getElem?_map, List.getElem?_range hj]
  rfl

theorem csv_s2 {j : ℕ} (hj : j < 20) :
    512 * ∑ i ∈ range 512, csvCell (csvRec i) j ^ 2 = csvD.getD j 0 + csvS1.getD j 0 ^ 2 := by
  rw [show (fun i => csvCell (csvRec i) j ^ 2) = fun i => (csvCell · j ^ 2) (toyCsv.getD i 0) from rfl,
    sum_getD (csvCell · j ^ 2) toyCsv 512 (by rw [toyCsv_length]; norm_num)]
  have := congrArg (fun l => l.getD j 0) csvD_eq
  simp only [List.getD_eq_getElem?_getD, List.getElem?_map, List.getElem?_range hj, Option.map_some,
    Option.getD_some] at this
  simpa only [List.getD_eq_getElem?_getD] using this

/-- The unit of the groups of column `j`. -/
def csvUnit (j : ℕ) : ℝ := if j = 2 ∨ j = 7 then 1 / 10 else 1

theorem csvVal_eq (r j : ℕ) : ((csvVal r j : ℚ) : ℝ) = csvUnit j * csvCell r j := by
  unfold csvVal csvUnit
  generalize csvCell r j = n
  split <;> push_cast <;> ring

/-- Column `j` as reals. -/
def csvCol (j i : ℕ) : ℝ := ((csvVal (csvRec i) j : ℚ) : ℝ)

theorem csvCol_eq (j i : ℕ) : csvCol j i = csvUnit j * csvCell (csvRec i) j := csvVal_eq _ _

theorem csv_mean {j : ℕ} (hj : j < 20) : meanOf (csvCol j) 512 = csvUnit j * csvS1.getD j 0 / 512 := by
  rw [meanOf, ← csv_s1 hj]
  simp only [csvCol_eq]
  rw [← mul_sum]
  push_cast
  rfl

theorem csv_var {j : ℕ} (hj : j < 20) :
    ∑ i ∈ range 512, (csvCol j i - meanOf (csvCol j) 512) ^ 2 =
      csvUnit j ^ 2 * csvD.getD j 0 / 512 := by
  have h1 : (∑ i ∈ range 512, (csvCell (csvRec i) j : ℝ)) = csvS1.getD j 0 := by
    exact_mod_cast csv_s1 hj
  have h2 : 512 * (∑ i ∈ range 512, (csvCell (csvRec i) j : ℝ) ^ 2) =
      csvD.getD j 0 + (csvS1.getD j 0 : ℝ) ^ 2 := by
    exact_mod_cast csv_s2 hj
  rw [csv_mean hj]
  simp only [csvCol_eq]
  generalize (csvS1.getD j 0 : ℝ) = S at *
  generalize (csvD.getD j 0 : ℝ) = D at *
  generalize csvUnit j = u
  have e : ∀ i, (u * (csvCell (csvRec i) j : ℝ) - u * S / 512) ^ 2 =
      u ^ 2 * ((csvCell (csvRec i) j : ℝ) ^ 2 - S / 256 * csvCell (csvRec i) j + S ^ 2 / 512 ^ 2) := by
    intro i; ring
  simp only [e]
  rw [← mul_sum, sum_add_distrib, sum_sub_distrib, ← mul_sum, h1, sum_const, card_range, nsmul_eq_mul]
  push_cast
  linear_combination (u ^ 2 / 512) * h2

theorem csvUnit_pos (j : ℕ) : 0 < csvUnit j := by unfold csvUnit; split <;> norm_num

/-- The standard deviation of column `j`. -/
theorem csv_std {j : ℕ} (hj : j < 20) (den : ℝ) :
    stdOf (csvCol j) 512 den = Real.sqrt (csvUnit j ^ 2 * csvD.getD j 0 / 512 / den) := by
  rw [stdOf, csv_var hj]

theorem csv_check {j i : ℕ} (hj : j < 20) (hc : toyCols j = true) (hi : i < 2000) :
    csvCell (csvRec i) j ^ 2 * 512 ^ 2 ≤ 32 * csvD.getD j 0 ∧
      ((512 * csvCell (csvRec i) j : ℕ) - csvS1.getD j 0 : ℤ) ^ 2 ≤ 11 * csvD.getD j 0 := by
  have h := List.all_eq_true.mp (all_csv csv_checks hi) j (List.mem_range.mpr hj)
  rw [if_pos hc, Bool.and_eq_true, decide_eq_true_eq, decide_eq_true_eq] at h
  exact h

theorem csv_check_rest {j i : ℕ} (hj : j < 20) (hc : ¬toyCols j = true) (hi : i < 2000) :
    csvCell (csvRec i) j ≤ 1 := by
  have h := List.all_eq_true.mp (all_csv csv_checks hi) j (List.mem_range.mpr hj)
  rw [if_neg hc, decide_eq_true_eq] at h
  exact h

theorem csvD_bound {j : ℕ} (hj : j < 20) (hc : toyCols j = true) :
    512 ^ 2 ≤ 16 * (csvUnit j ^ 2 * csvD.getD j 0) := by
  have h := List.all_eq_true.mp csvD_ge j (List.mem_range.mpr hj)
  rw [hc, Bool.not_true, Bool.false_or, decide_eq_true_eq] at h
  have h' : (((if j = 2 ∨ j = 7 then 100 else 1) * 512 ^ 2 : ℕ) : ℝ) ≤ ((16 * csvD.getD j 0 : ℕ) : ℝ) := by
    exact_mod_cast h
  unfold csvUnit
  split at h' <;> rename_i hq
  · rw [if_pos hq]; push_cast at h'; norm_num at h' ⊢; linarith
  · rw [if_neg hq]; push_cast at h'; norm_num at h' ⊢; linarith

theorem csv_std_sq {j : ℕ} (hj : j < 20) {den : ℝ} (h1 : 511 ≤ den) :
    stdOf (csvCol j) 512 den ^ 2 = csvUnit j ^ 2 * csvD.getD j 0 / 512 / den ∧
      0 ≤ stdOf (csvCol j) 512 den := by
  have : 0 ≤ csvUnit j ^ 2 * (csvD.getD j 0 : ℝ) / 512 / den := by positivity
  rw [csv_std hj]
  exact ⟨Real.sq_sqrt this, Real.sqrt_nonneg _⟩

/-- Size of the standard deviation, of the entries and of their distance from the mean. -/
theorem csv_col {j : ℕ} (hj : j < 20) (hc : toyCols j = true) {den : ℝ} (h1 : 511 ≤ den) (h2 : den ≤ 512) :
    1 / 4 ≤ stdOf (csvCol j) 512 den ∧ ∀ i < 2000,
      |csvCol j i| ≤ 5.66 * stdOf (csvCol j) 512 den ∧
      |csvCol j i - meanOf (csvCol j) 512| ≤ 3.32 * stdOf (csvCol j) 512 den := by
  obtain ⟨hsq, h0⟩ := csv_std_sq hj h1
  have hD := csvD_bound hj hc
  have hd : 0 < den := by linarith
  have hV : csvUnit j ^ 2 * csvD.getD j 0 / 512 ^ 2 ≤ stdOf (csvCol j) 512 den ^ 2 := by
    rw [hsq, div_div]
    apply div_le_div_of_nonneg_left (by positivity) (by positivity)
    nlinarith
  generalize stdOf (csvCol j) 512 den = s at *
  refine ⟨?_, fun i hi => ⟨?_, ?_⟩⟩
  · refine le_of_sq_le_sq ?_ h0
    refine le_trans ?_ hV
    rw [le_div_iff₀ (by norm_num)]
    linarith
  · refine abs_le_of_sq_le_sq ?_ (by positivity)
    have h := (csv_check hj hc hi).1
    have h' : ((csvCell (csvRec i) j : ℝ)) ^ 2 * 512 ^ 2 ≤ 32 * csvD.getD j 0 := by exact_mod_cast h
    have e : csvCol j i ^ 2 ≤ 32 * (csvUnit j ^ 2 * csvD.getD j 0 / 512 ^ 2) := by
      rw [csvCol_eq, mul_pow, ← mul_div_assoc, le_div_iff₀ (by norm_num)]
      have := mul_le_mul_of_nonneg_left h' (sq_nonneg (csvUnit j))
      linarith
    refine e.trans ?_
    have := mul_le_mul_of_nonneg_left hV (show (0 : ℝ) ≤ 32 by norm_num)
    nlinarith [sq_nonneg s]
  · refine abs_le_of_sq_le_sq ?_ (by positivity)
    have h := (csv_check hj hc hi).2
    have h' : (512 * (csvCell (csvRec i) j : ℝ) - csvS1.getD j 0) ^ 2 ≤ 11 * csvD.getD j 0 := by
      have : ((((512 * csvCell (csvRec i) j : ℕ) - csvS1.getD j 0 : ℤ) ^ 2 : ℤ) : ℝ) ≤
        ((11 * csvD.getD j 0 : ℤ) : ℝ) := by exact_mod_cast h
      push_cast at this
      exact this
    have e : (csvCol j i - meanOf (csvCol j) 512) ^ 2 ≤ 11 * (csvUnit j ^ 2 * csvD.getD j 0 / 512 ^ 2) := by
      rw [csvCol_eq, csv_mean hj, ← mul_div_assoc, le_div_iff₀ (by norm_num)]
      have := mul_le_mul_of_nonneg_left h' (sq_nonneg (csvUnit j))
      nlinarith
    refine e.trans ?_
    have := mul_le_mul_of_nonneg_left hV (show (0 : ℝ) ≤ 11 by norm_num)
    nlinarith [sq_nonneg s]

end MK.Lr
