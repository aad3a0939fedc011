import Verif.Props.ShippedToy
import Verif.Props.ExMain

/-!
# Runs of lr_toy.go and lr_minibatch_toy.go meeting the hypotheses of C53, C54 and C55
-/

noncomputable section

namespace MK.Lr

open Finset

/-- Three records; the first and third column are to be normalised over the first two. -/
example : ∃ out, normalise Fl.exact Real.sqrt 2 2 3 3 (fun j => j ≠ 1)
      [[1, 5, 0], [3, 6, 4], [4, 7, 8]] = .ok out ∧
    Normalised 2 2 3 3 (fun j => j ≠ 1) [[1, 5, 0], [3, 6, 4], [4, 7, 8]] out ∧
    entry out 0 0 = -1 ∧ entry out 2 0 = 2 ∧ entry out 1 1 = 6 ∧ entry out 2 2 = 3 := by
  obtain ⟨out, e, h⟩ := C53_normalise (pop := 2) (den := 2) (numFeature := 3) (numData := 3)
    (sel := fun j => j ≠ 1) (data := [[1, 5, 0], [3, 6, 4], [4, 7, 8]])
    (fun i hi j hj => by interval_cases i <;> simpa using hj)
    (fun i hi j hj _ => by interval_cases i <;> simpa using hj)
  refine ⟨out, e, h, ?_, ?_, ?_, ?_⟩
  · rw [h.vals 0 (by norm_num) 0 (by norm_num) rfl]
    norm_num [colMean, colVar, entry, sum_range_succ]
  · rw [h.vals 2 (by norm_num) 0 (by norm_num) rfl]
    norm_num [colMean, colVar, entry, sum_range_succ]
  · rw [h.keep 1 1 (by simp)]
    norm_num [entry]
  · rw [h.vals 2 (by norm_num) 2 (by norm_num) rfl]
    norm_num [colMean, colVar, entry, sum_range_succ]
    rw [show (4 : ℝ) = 2 ^ 2 by norm_num, Real.sqrt_sq (by norm_num)]
    norm_num

/-- The same in float64: the entry that is exactly 2 comes out within `2^-37`. -/
example : ∃ out, normalise Fl.double sqrt53 2 2 3 3 (fun j => j ≠ 1)
      [[1, 5, 0], [3, 6, 4], [4, 7, 8]] = .ok out ∧
    |(entry out 2 0).re - 2| ≤ 1 / 2 ^ 37 ∧ entry out 1 1 = 6 := by
  have hv0 : Real.sqrt (colVar [[1, 5, 0], [3, 6, 4], [4, 7, 8]] 2 2 0) = 1 := by
    norm_num [colMean, colVar, entry, sum_range_succ]
  have hv2 : Real.sqrt (colVar [[1, 5, 0], [3, 6, 4], [4, 7, 8]] 2 2 2) = 2 := by
    norm_num [colMean, colVar, entry, sum_range_succ]
    rw [show (4 : ℝ) = 2 ^ 2 by norm_num, Real.sqrt_sq (by norm_num)]
  obtain ⟨out, e, -, h⟩ := C63_normalise Fl.double_ok sqrt53_ok (pop := 2) (den := 2) (κ := 4)
    (numFeature := 3) (numData := 3) (sel := fun j => j ≠ 1) (data := [[1, 5, 0], [3, 6, 4], [4, 7, 8]])
    (fun i hi j hj => by interval_cases i <;> simpa using hj)
    (fun i hi j hj _ => by interval_cases i <;> simpa using hj)
    (by norm_num) (by norm_num) (by norm_num) (by norm_num)
    (fun j hj hj' => ⟨0, by norm_num, 1, by norm_num, by
      interval_cases j
      · norm_num [entry]
      · simp at hj'
      · norm_num [entry]⟩)
    (fun i hi j hj hj' => by
      have hi : i < 3 := by omega
      interval_cases j
      · rw [hv0]; interval_cases i <;> norm_num [entry]
      · simp at hj'
      · rw [hv2]; interval_cases i <;> norm_num [entry])
  refine ⟨out, e, ?_, by rw [h.keep 1 1 (by simp)]; norm_num [entry]⟩
  have := h.vals 2 (by norm_num) 0 (by norm_num) rfl
  rw [hv0] at this
  norm_num [colMean, entry, sum_range_succ] at this ⊢
  exact this

/-- With too few records the normalisation panics. -/
example (F : Fl) (sq : ℝ → ℝ) :
    ¬∃ out, normalise F sq 2 2 3 4 (fun j => j ≠ 1) [[1, 5, 0], [3, 6, 4], [4, 7, 8]] = .ok out := by
  rw [C53_ok_iff]
  rintro ⟨-, h⟩
  have := (h 3 (by norm_num) 0 (by norm_num) rfl).1
  simp at this

/-- 2000 records of 20 features and a label each. -/
def exToyData : List (List ℂ) := (List.range 2000).map fun i =>
  (List.range 20).map fun j => (((i + j) % 2 : ℕ) : ℂ)

@[inherit_doc exToyData]
def exToyLabels : List ℂ := (List.range 2000).map fun i => ((i % 4 : ℕ) : ℂ)

theorem exToy_entry {i j : ℕ} (hi : i < 2000) (hj : j < 20) :
    entry exToyData i j = (((i + j) % 2 : ℕ) : ℂ) := by
  simp [entry, exToyData, hi, hj]

theorem exToy_le (i j : ℕ) : ‖entry exToyData i j‖ ≤ 100 := by
  by_cases h : i < 2000 ∧ j < 20
  · rw [exToy_entry h.1 h.2, Complex.norm_natCast]
    have : (i + j) % 2 ≤ 100 := by omega
    exact_mod_cast this
  · have : entry exToyData i j = 0 := by
      rw [entry]
      by_cases hi : i < 2000
      · have hj : ¬j < 20 := fun hj => h ⟨hi, hj⟩
        simp [exToyData, hi, hj]
      · simp [exToyData, hi]
    rw [this]; norm_num

theorem exToy_inside {den : ℝ} (hd : 0 < den) (hd' : den ≤ 512) {i j : ℕ} (hi : i < 2000) (hj : j < 20) :
    |(entry exToyData i j).re - colMean exToyData 512 j| ≤ 32 * Real.sqrt (colVar exToyData 512 den j) ∧
    |(entry exToyData i j).re| ≤ 32 * Real.sqrt (colVar exToyData 512 den j) := by
  have hx : ∀ i < 2000, 0 ≤ (entry exToyData i j).re ∧ (entry exToyData i j).re ≤ 1 := by
    intro i hi
    rw [exToy_entry hi hj, Complex.natCast_re]
    have : (i + j) % 2 ≤ 1 := by omega
    exact ⟨by positivity, by exact_mod_cast this⟩
  have hm : 0 ≤ colMean exToyData 512 j ∧ colMean exToyData 512 j ≤ 1 := by
    unfold colMean
    constructor
    · exact div_nonneg (sum_nonneg fun i hi => (hx i (by have := mem_range.mp hi; omega)).1)
        (by norm_num)
    · rw [div_le_one (by norm_num)]
      refine (sum_le_sum fun i hi => (hx i (by have := mem_range.mp hi; omega)).2).trans ?_
      simp
  have hv : (1 / 32 : ℝ) ^ 2 ≤ colVar exToyData 512 den j := by
    unfold colVar
    rw [le_div_iff₀ hd]
    have h2 : ∑ i ∈ ({0, 1} : Finset ℕ), ((entry exToyData i j).re - colMean exToyData 512 j) ^ 2 ≤
        ∑ i ∈ range 512, ((entry exToyData i j).re - colMean exToyData 512 j) ^ 2 :=
      sum_le_sum_of_subset_of_nonneg (by intro x hx; simp at hx; rw [mem_range]; omega)
        fun _ _ _ => sq_nonneg _
    rw [sum_pair (by norm_num)] at h2
    have h3 : ((entry exToyData 0 j).re - (entry exToyData 1 j).re) ^ 2 = 1 := by
      rw [exToy_entry (by norm_num) hj, exToy_entry (by norm_num) hj, Complex.natCast_re,
        Complex.natCast_re]
      rcases Nat.mod_two_eq_zero_or_one j with h | h
      · rw [show (0 + j) % 2 = 0 by omega, show (1 + j) % 2 = 1 by omega]; norm_num
      · rw [show (0 + j) % 2 = 1 by omega, show (1 + j) % 2 = 0 by omega]; norm_num
    nlinarith [sq_nonneg ((entry exToyData 0 j).re - colMean exToyData 512 j +
      ((entry exToyData 1 j).re - colMean exToyData 512 j))]
  have hs : (1 / 32 : ℝ) ≤ Real.sqrt (colVar exToyData 512 den j) := Real.le_sqrt_of_sq_le hv
  have h1 := hx i hi
  have : |(entry exToyData i j).re - colMean exToyData 512 j| ≤ 1 := by
    rw [abs_le]; constructor <;> linarith [hm.1, hm.2, h1.1, h1.2]
  refine ⟨by linarith, ?_⟩
  rw [abs_of_nonneg h1.1]
  linarith [h1.2]

theorem exToyData_ok {den : ℝ} (hd : 0 < den) (hd' : den ≤ 512) :
    ToyData exToyData exToyLabels den 100 32 where
  hundred := le_rfl
  dataLen := by simp [exToyData]
  labelLen := by simp [exToyLabels]
  rowLen i hi := by simp [exToyData, hi]
  varies j hj _ := ⟨0, by norm_num, 1, by norm_num, by
    rw [exToy_entry (by norm_num) hj, exToy_entry (by norm_num) hj, Complex.natCast_re,
      Complex.natCast_re]
    intro h
    have h : (0 + j) % 2 = (1 + j) % 2 := by exact_mod_cast h
    omega⟩
  one := by norm_num
  kappa := by norm_num
  close i hi j hj _ := (exToy_inside hd hd' hi hj).2
  inside i hi j hj _ := by
    have := (exToy_inside hd hd' hi hj).1
    have := Real.sqrt_nonneg (colVar exToyData 512 den j)
    linarith
  outside i j _ := exToy_le i j

example : ∃ out, lrToyMain (stdEncoder pnCtx) exPar sqrt53 15 toyCfg exRand exToyData exToyLabels = .ok out ∧
    out.zPrints.length = 5 ∧ out.result.length = 2 ^ 14 := by
  obtain ⟨data, -, out, h1, ⟨zd, -, h2⟩, vr, -, -, -, ⟨m, -, h3⟩, -⟩ := C54_shipped (exPnOk 1) sqrt53_ok
    (exToyData_ok (by norm_num) le_rfl)
  refine ⟨out, h1, by rw [h2]; rfl, ?_⟩
  rw [h3, (exPnOk 1).encoder.len]

example : ∃ out, mbToyMain (stdEncoder pnCtx) exPar sqrt53 15 mbToyCfg exRand exToyData exToyLabels = .ok out ∧
    out.prints.length = 3 ∧ out.results.length = 2000 := by
  obtain ⟨data, -, out, h1, h2, -, h3, -⟩ := C55_shipped (exPnOk 4) sqrt53_ok
    (exToyData_ok (den := 511) (by norm_num) (by norm_num))
  exact ⟨out, h1, h2, h3⟩

end MK.Lr
