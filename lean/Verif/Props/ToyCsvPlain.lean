import Verif.Props.ToyCsvFix

/-!
# C78: what the toy programs compute from lr/toyData.csv
-/

noncomputable section

namespace MK.Lr

open Finset

/-! ## The tables and the reals they stand for -/

/-- `w / 10^16` is the factor of column `j` of the standard scores, rounded down. -/
def RootOk (den : ℕ) (w : List ℕ) : Prop := ∀ j < 20,
  w.getD j 0 ^ 2 * (512 * csvD.getD j 0) ≤ den * 10 ^ 32 ∧
    den * 10 ^ 32 < (w.getD j 0 + 1) ^ 2 * (512 * csvD.getD j 0)

theorem rootOk512 : RootOk 512 fxW512 := fun j hj => by
  have h := List.all_eq_true.mp fxW512_ok j (List.mem_range.mpr hj)
  rwa [Bool.and_eq_true, decide_eq_true_eq, decide_eq_true_eq] at h

theorem rootOk511 : RootOk 511 fxW511 := fun j hj => by
  have h := List.all_eq_true.mp fxW511_ok j (List.mem_range.mpr hj)
  rwa [Bool.and_eq_true, decide_eq_true_eq, decide_eq_true_eq] at h

theorem csvS1_le {j : ℕ} (hj : j < 20) : csvS1.getD j 0 ≤ 512 * 10000 := by
  have : (List.range 20).all (fun j => decide (csvS1.getD j 0 ≤ 512 * 10000)) = true := by decide +kernel
  have h := List.all_eq_true.mp this j (List.mem_range.mpr hj)
  rwa [decide_eq_true_eq] at h

/-- The entries of `fxZ` are the standard scores up to `10^-9`. -/
theorem fxZ_score {den : ℕ} {w : List ℕ} (hw : RootOk den w) (h1 : 511 ≤ den) {i j : ℕ} (hj : j < 20) :
    |csvScore den i j - fxZ w (csvRec i) j / 10 ^ 16| ≤ 1 / 10 ^ 9 := by
  have hden : (511 : ℝ) ≤ den := by exact_mod_cast h1
  unfold csvScore fxZ
  split <;> rename_i hc
  · obtain ⟨hsq, h0⟩ := csv_std_sq hj hden
    have hD := csvD_bound hj hc
    have hu := csvUnit_pos j
    obtain ⟨w1, w2⟩ := hw j hj
    have w1' : (w.getD j 0 : ℝ) ^ 2 * (512 * csvD.getD j 0) ≤ den * 10 ^ 32 := by exact_mod_cast w1
    have w2' : (den : ℝ) * 10 ^ 32 < (w.getD j 0 + 1 : ℝ) ^ 2 * (512 * csvD.getD j 0) := by exact_mod_cast w2
    have hS := csvS1_le hj
    have hS' : (csvS1.getD j 0 : ℝ) ≤ 512 * 10000 := by exact_mod_cast hS
    have hS0 : (0 : ℝ) ≤ csvS1.getD j 0 := by positivity
    have hcl : (csvCell (csvRec i) j : ℝ) ≤ 10 ^ 4 := by
      have := (csvCell_lt (csvRec i) j).le
      exact_mod_cast this
    have hc0 : (0 : ℝ) ≤ csvCell (csvRec i) j := by positivity
    rw [csvCol_eq, csv_mean hj]
    push_cast
    generalize stdOf (csvCol j) 512 den = s at *
    generalize (csvCell (csvRec i) j : ℝ) = c at *
    generalize (csvS1.getD j 0 : ℝ) = S at *
    generalize (csvD.getD j 0 : ℝ) = D at *
    have hwn : (0 : ℝ) ≤ w.getD j 0 := by positivity
    generalize (w.getD j 0 : ℝ) = v at *
    generalize (den : ℝ) = m at *
    generalize csvUnit j = u at *
    have hm : 0 < m := by linarith
    have hD0 : 0 < D := by
      by_contra hn
      have : u ^ 2 * D ≤ 0 := mul_nonpos_of_nonneg_of_nonpos (by positivity) (by linarith)
      linarith
    have hs : 0 < s := by
      rcases h0.lt_or_eq with h | h
      · exact h
      · rw [← h] at hsq
        have : 0 < u ^ 2 * D / 512 / m := by positivity
        linarith
    set ω := u / (512 * s) with hω
    have hω0 : 0 < ω := by positivity
    have hω2 : ω ^ 2 * (512 * D) = m := by
      rw [hω, div_pow, mul_pow, hsq]
      field_simp
    have a1 : v ≤ 10 ^ 16 * ω := by
      refine le_of_sq_le_sq ?_ (by positivity)
      rw [← hω2] at w1'
      have : v ^ 2 * (512 * D) ≤ (10 ^ 16 * ω) ^ 2 * (512 * D) := by nlinarith
      exact le_of_mul_le_mul_right this (by positivity)
    have a2 : 10 ^ 16 * ω ≤ v + 1 := by
      refine le_of_sq_le_sq ?_ (by positivity)
      rw [← hω2] at w2'
      have : (10 ^ 16 * ω) ^ 2 * (512 * D) ≤ (v + 1) ^ 2 * (512 * D) := by nlinarith
      exact le_of_mul_le_mul_right this (by positivity)
    have e : (u * c - u * S / 512) / s = (512 * c - S) * ω := by
      rw [hω]; field_simp
    have e2 : (512 * c - S) * ω - (512 * c - S) * v / 10 ^ 16 =
        (512 * c - S) * ((10 ^ 16 * ω - v) / 10 ^ 16) := by ring
    rw [e, e2, abs_mul]
    have b1 : |512 * c - S| ≤ 512 * 10000 := by
      rw [abs_le]; constructor <;> linarith
    have b2 : |(10 ^ 16 * ω - v) / 10 ^ 16| ≤ 1 / 10 ^ 16 := by
      rw [abs_of_nonneg (div_nonneg (by linarith) (by positivity))]
      exact div_le_div_of_nonneg_right (by linarith) (by positivity)
    refine (mul_le_mul b1 b2 (abs_nonneg _) (by norm_num)).trans ?_
    norm_num
  · have h27 : ¬(j = 2 ∨ j = 7) := by
      rintro (rfl | rfl) <;> exact hc (by decide)
    rw [csvCol_eq, csvUnit, if_neg h27]
    push_cast
    rw [one_mul, mul_div_assoc]
    norm_num

/-- `fxZ` as a real. -/
def fxz (w : List ℕ) (i j : ℕ) : ℝ := fxZ w (csvRec i) j / 10 ^ 16

theorem fxz_near {den : ℕ} {w : List ℕ} (hw : RootOk den w) (h1 : 511 ≤ den) {i j : ℕ} (hj : j < 20)
    {x : ℝ} (h : |x - csvScore den i j| ≤ 1 / 10 ^ 8) : |x - fxz w i j| ≤ 2 / 10 ^ 8 := by
  have a := abs_le.mp (fxZ_score (i := i) hw h1 hj)
  have b := abs_le.mp h
  rw [fxz]
  rw [abs_le]
  norm_num at a b ⊢
  constructor <;> linarith [a.1, a.2, b.1, b.2]

/-! ## Sums -/

theorem list_sum_range (f : ℕ → ℤ) (n : ℕ) : ((List.range n).map f).sum = ∑ j ∈ range n, f j := by
  induction n with
  | zero => simp
  | succ n ih => rw [List.range_succ, List.map_append, List.sum_append, ih, sum_range_succ]; simp

theorem sum_getD_int {M : Type*} [AddCommMonoid M] (f : ℕ → M) (l : List ℕ) (n : ℕ) (hn : n ≤ l.length) :
    ∑ i ∈ range n, f (l.getD i 0) = ((l.take n).map f).sum := by
  induction n generalizing l with
  | zero => simp
  | succ n ih =>
    match l with
    | [] => simp at hn
    | a :: l =>
      rw [sum_range_succ', List.take_succ_cons, List.map_cons, List.sum_cons, add_comm]
      simp only [List.getD_cons_succ, List.getD_cons_zero]
      rw [ih l (by simpa using hn)]

theorem sum_csv {M : Type*} [AddCommMonoid M] (f : ℕ → M) {a n : ℕ} (h : a + n ≤ 2000) :
    ∑ d ∈ Ico a (a + n), f (csvRec d) = (((toyCsv.drop a).take n).map f).sum := by
  rw [sum_Ico_eq_sum_range, add_tsub_cancel_left, ← sum_getD_int f _ n (by
    rw [List.length_drop, toyCsv_length]; omega)]
  refine sum_congr rfl fun t _ => ?_
  rw [csvRec]
  congr 1
  simp [List.getD_eq_getElem?_getD]

theorem csvTarget_sgn (d : ℕ) : csvTarget d - 1 / 2 = (fxSgn (csvRec d) : ℝ) / 2 := by
  unfold csvTarget fxSgn
  split <;> push_cast <;> norm_num

/-- A table of a first step, checked. -/
def StepOk (w : List ℕ) (a n : ℕ) (b : List ℤ) : Prop := ∀ j < 20,
  |3 * (((toyCsv.drop a).take n).map fun r => fxSgn r * fxZ w r j).sum * 10 ^ 10 - 2 * (n : ℤ) * 10 ^ 16 * b.getD j 0| ≤
    2 * (n : ℤ) * 10 ^ 16

theorem stepOk_fxB : StepOk fxW512 0 512 fxB := fun j hj => by
  have h := List.all_eq_true.mp fxB_ok j (List.mem_range.mpr hj)
  rwa [decide_eq_true_eq] at h

theorem stepOk_fxB1 : StepOk fxW511 128 128 fxB1 := fun j hj => by
  have h := List.all_eq_true.mp fxB1_ok j (List.mem_range.mpr hj)
  rwa [decide_eq_true_eq] at h

theorem StepOk.real {w : List ℕ} {a n : ℕ} {b : List ℤ} (h : StepOk w a n b) (han : a + n ≤ 2000) (hn : 0 < n)
    {j : ℕ} (hj : j < 20) :
    |csvStep (Ico a (a + n)) (fxz w) j - (b.getD j 0 : ℝ) / 10 ^ 10| ≤ 1 / 10 ^ 10 := by
  have hk := h j hj
  rw [← sum_csv (fun r => fxSgn r * fxZ w r j) han] at hk
  have hk' : |3 * (∑ d ∈ Ico a (a + n), (fxSgn (csvRec d) : ℝ) * fxZ w (csvRec d) j) * 10 ^ 10 -
      2 * (n : ℝ) * 10 ^ 16 * (b.getD j 0 : ℝ)| ≤ 2 * (n : ℝ) * 10 ^ 16 := by exact_mod_cast hk
  have hn' : (0 : ℝ) < n := by exact_mod_cast hn
  have e : csvStep (Ico a (a + n)) (fxz w) j = 3 / n *
      ((∑ d ∈ Ico a (a + n), (fxSgn (csvRec d) : ℝ) * fxZ w (csvRec d) j) / (2 * 10 ^ 16)) := by
    rw [csvStep, Nat.card_Ico, add_tsub_cancel_left, sum_div]
    congr 1
    refine sum_congr rfl fun d _ => ?_
    rw [csvTarget_sgn, fxz]
    ring
  rw [e]
  generalize (∑ d ∈ Ico a (a + n), (fxSgn (csvRec d) : ℝ) * fxZ w (csvRec d) j) = T at *
  generalize (b.getD j 0 : ℝ) = B at *
  have e2 : 3 / (n : ℝ) * (T / (2 * 10 ^ 16)) - B / 10 ^ 10 =
      (3 * T * 10 ^ 10 - 2 * n * 10 ^ 16 * B) / (2 * n * 10 ^ 16 * 10 ^ 10) := by
    field_simp
  rw [e2, abs_div, abs_of_pos (show (0 : ℝ) < 2 * n * 10 ^ 16 * 10 ^ 10 by positivity),
    div_le_div_iff₀ (by positivity) (by positivity)]
  nlinarith

/-! ## Perturbation -/

theorem csvTarget_abs (d : ℕ) : |csvTarget d - 1 / 2| ≤ 1 / 2 := by
  unfold csvTarget
  split <;> norm_num [abs_le]

theorem avg_le {s : Finset ℕ} {f : ℕ → ℝ} {c : ℝ} (hs : s.Nonempty) (hf : ∀ d ∈ s, |f d| ≤ c) :
    |3 / (s.card : ℝ) * ∑ d ∈ s, f d| ≤ 3 * c := by
  have hpos : (0 : ℝ) < s.card := by exact_mod_cast hs.card_pos
  rw [abs_mul, abs_of_pos (by positivity)]
  have h1 : |∑ d ∈ s, f d| ≤ s.card * c := by
    refine (abs_sum_le_sum_abs _ _).trans ((sum_le_sum hf).trans ?_)
    rw [sum_const, nsmul_eq_mul]
  calc 3 / (s.card : ℝ) * |∑ d ∈ s, f d| ≤ 3 / (s.card : ℝ) * (s.card * c) :=
        mul_le_mul_of_nonneg_left h1 (by positivity)
    _ = 3 * c := by field_simp

theorem csvStep_le {s : Finset ℕ} {z : ℕ → ℕ → ℝ} {j : ℕ} {c : ℝ} (hs : s.Nonempty) (hz : ∀ d ∈ s, |z d j| ≤ c) :
    |csvStep s z j| ≤ 3 / 2 * c := by
  refine (avg_le (c := 1 / 2 * c) hs fun d hd => ?_).trans (by linarith)
  rw [abs_mul]
  exact mul_le_mul (csvTarget_abs d) (hz d hd) (abs_nonneg _) (by norm_num)

theorem csvStep_near {s : Finset ℕ} {z z' : ℕ → ℕ → ℝ} {j : ℕ} {e : ℝ} (hs : s.Nonempty)
    (hz : ∀ d ∈ s, |z d j - z' d j| ≤ e) : |csvStep s z j - csvStep s z' j| ≤ 3 / 2 * e := by
  have : csvStep s z j - csvStep s z' j = csvStep s (fun d j => z d j - z' d j) j := by
    simp only [csvStep]
    rw [← mul_sub, ← sum_sub_distrib]
    congr 1
    exact sum_congr rfl fun d _ => by ring
  rw [this]
  exact csvStep_le hs hz

theorem dot_near {p q p' q' : ℕ → ℝ} {P Q e f : ℝ} (hP : ∀ j < 20, |p j| ≤ P) (hQ : ∀ j < 20, |q' j| ≤ Q)
    (he : ∀ j < 20, |p j - p' j| ≤ e) (hf : ∀ j < 20, |q j - q' j| ≤ f) (P0 : 0 ≤ P) (e0 : 0 ≤ e) :
    |∑ j ∈ range 20, p j * q j - ∑ j ∈ range 20, p' j * q' j| ≤ 20 * (P * f + e * Q) := by
  rw [← sum_sub_distrib]
  refine (abs_sum_le_sum_abs _ _).trans ?_
  refine (sum_le_sum (g := fun _ => P * f + e * Q) fun j hj => ?_).trans (by simp; linarith)
  have hj := mem_range.mp hj
  have e1 : p j * q j - p' j * q' j = p j * (q j - q' j) + (p j - p' j) * q' j := by ring
  rw [e1]
  refine (abs_add_le _ _).trans (add_le_add ?_ ?_)
  · rw [abs_mul]
    exact mul_le_mul (hP j hj) (hf j hj) (abs_nonneg _) P0
  · rw [abs_mul]
    exact mul_le_mul (he j hj) (hQ j hj) (abs_nonneg _) e0

theorem cubic_near {x y : ℝ} (hx : |x| ≤ 7) (hy : |y| ≤ 7) : |cubic x - cubic y| ≤ 15 / 100 * |x - y| := by
  rw [abs_le] at hx hy
  have e : cubic x - cubic y = (15 / 100 - 15 / 10000 * (x ^ 2 + x * y + y ^ 2)) * (x - y) := by
    unfold cubic; ring
  rw [e, abs_mul]
  refine mul_le_mul_of_nonneg_right ?_ (abs_nonneg _)
  rw [abs_le]
  constructor <;> nlinarith [sq_nonneg (x + y), sq_nonneg x, sq_nonneg y, hx.1, hx.2, hy.1, hy.2]

theorem fxDot_real (w : List ℕ) (b : List ℤ) (i : ℕ) :
    ∑ j ∈ range 20, fxz w i j * ((b.getD j 0 : ℤ) / 10 ^ 10 : ℝ) = (fxDot w b (csvRec i) : ℝ) / 10 ^ 26 := by
  rw [fxDot, list_sum_range]
  push_cast
  rw [sum_div]
  refine sum_congr rfl fun j _ => ?_
  rw [fxz]
  ring

theorem fxB_small : (List.range 20).all (fun j => decide (|fxB.getD j 0| ≤ 2 * 10 ^ 10)) = true := by decide +kernel

theorem fxB1_small : (List.range 20).all (fun j => decide (|fxB1.getD j 0| ≤ 2 * 10 ^ 10)) = true := by decide +kernel

theorem fxB2_small : (List.range 20).all (fun j => decide (|fxB2.getD j 0| ≤ 2 * 10 ^ 10)) = true := by decide +kernel

theorem fxB_le {b : List ℤ} (h : (List.range 20).all (fun j => decide (|b.getD j 0| ≤ 2 * 10 ^ 10)) = true)
    {j : ℕ} (hj : j < 20) : |((b.getD j 0 : ℤ) / 10 ^ 10 : ℝ)| ≤ 2 := by
  have h := List.all_eq_true.mp h j (List.mem_range.mpr hj)
  rw [decide_eq_true_eq] at h
  have h' : |(b.getD j 0 : ℝ)| ≤ 2 * 10 ^ 10 := by exact_mod_cast h
  rw [abs_div, abs_of_pos (show (0 : ℝ) < 10 ^ 10 by norm_num), div_le_iff₀ (by norm_num)]
  exact h'

/-! ## lr_toy.go -/

/-- The prediction of lr_toy.go on its file. -/
theorem toy_plain {z : ℕ → ℕ → ℝ}
    (hz : ∀ i < 2000, ∀ j < 20, |z i j - csvScore 512 i j| ≤ 1 / 10 ^ 8 ∧ |z i j| ≤ 3.33) :
    |cubic (∑ j ∈ range 20, z 1935 j * csvStep (range 512) z j) - 0.350819| ≤ 1 / 10 ^ 5 := by
  have hne : (Ico 0 512).Nonempty := ⟨0, by simp⟩
  have hlt : ∀ d ∈ Ico 0 512, d < 2000 := fun d hd => (mem_Ico.mp hd).2.trans (by norm_num)
  have hn : ∀ i < 2000, ∀ j < 20, |z i j - fxz fxW512 i j| ≤ 2 / 10 ^ 8 := fun i hi j hj =>
    fxz_near rootOk512 (by norm_num) hj (by exact_mod_cast (hz i hi j hj).1)
  have hb : ∀ j < 20, |csvStep (Ico 0 512) z j - ((fxB.getD j 0 : ℤ) / 10 ^ 10 : ℝ)| ≤ 4 / 10 ^ 8 := by
    intro j hj
    have a := abs_le.mp (csvStep_near (z := z) (z' := fxz fxW512) (j := j) hne fun d hd => hn d (hlt d hd) j hj)
    have b := abs_le.mp (stepOk_fxB.real (by norm_num) (by norm_num) hj)
    rw [zero_add] at b
    rw [abs_le]
    norm_num at a b ⊢
    constructor <;> linarith [a.1, a.2, b.1, b.2]
  have hx := dot_near (hz 1935 (by norm_num) · · |>.2) (fun j hj => fxB_le fxB_small hj) (hn 1935 (by norm_num)) hb (by norm_num) (by norm_num)
  rw [fxDot_real] at hx
  have hk := fx_toy.1
  have hk' : |(fxDot fxW512 fxB (csvRec 1935) : ℝ) + 1004678 * 10 ^ 20| ≤ 10 ^ 20 := by exact_mod_cast hk
  rw [Nat.Ico_zero_eq_range] at hx
  generalize (∑ j ∈ range 20, z 1935 j * csvStep (range 512) z j) = x at *
  generalize (fxDot fxW512 fxB (csvRec 1935) : ℝ) = k at *
  rw [abs_le] at hx hk'
  norm_num at hx hk'
  have h1 : |x - (-1.004678)| ≤ 5 / 10 ^ 5 := by
    rw [abs_le]
    norm_num
    constructor <;> linarith [hx.1, hx.2, hk'.1, hk'.2]
  have h2 := cubic_near (x := x) (y := -1.004678) (by rw [abs_le] at *; norm_num at h1 ⊢; constructor <;> linarith [h1.1, h1.2])
    (by norm_num [abs_le])
  have h3 := abs_le.mp (h2.trans (mul_le_mul_of_nonneg_left h1 (by norm_num)))
  have h4 : cubic (-1.004678) = -15 / 10000 * (-1.004678) ^ 3 + 15 / 100 * (-1.004678) + 1 / 2 := rfl
  rw [abs_le]
  norm_num at h3 h4 ⊢
  constructor <;> linarith [h3.1, h3.2]

/-! ## lr_minibatch_toy.go -/

/-- The inner products with the records 256 to 383. -/
def fxx (d : ℕ) : ℝ := (fxX.getD (d - 256) 0 : ℤ) / 10 ^ 10

theorem fxX_real {d : ℕ} (hd : d ∈ Ico 256 384) :
    |(fxDot fxW511 fxB1 (csvRec d) : ℝ) / 10 ^ 26 - fxx d| ≤ 1 / 10 ^ 10 ∧ |fxx d| ≤ 6 := by
  rw [mem_Ico] at hd
  have h := List.all_eq_true.mp fxX_ok (d - 256) (List.mem_range.mpr (by omega))
  rw [Bool.and_eq_true, decide_eq_true_eq, decide_eq_true_eq, Nat.add_sub_cancel' hd.1] at h
  obtain ⟨h1, h2⟩ := h
  have h1' : |(fxDot fxW511 fxB1 (csvRec d) : ℝ) - (fxX.getD (d - 256) 0 : ℤ) * 10 ^ 16| ≤ 10 ^ 16 := by
    exact_mod_cast h1
  have h2' : |((fxX.getD (d - 256) 0 : ℤ) : ℝ)| ≤ 6 * 10 ^ 10 := by exact_mod_cast h2
  rw [fxx]
  generalize (fxDot fxW511 fxB1 (csvRec d) : ℝ) = k at *
  generalize ((fxX.getD (d - 256) 0 : ℤ) : ℝ) = x at *
  rw [abs_le] at *
  norm_num at h1' h2' ⊢
  refine ⟨⟨?_, ?_⟩, ?_⟩
  · linarith [h1'.1]
  · linarith [h1'.2]
  · rw [abs_le]
    constructor <;> linarith [h2'.1, h2'.2]

/-- The second step at the rounded inner products. -/
def fxStep2 (z : ℕ → ℕ → ℝ) (j : ℕ) : ℝ :=
  3 / ((Ico 256 384).card : ℝ) * ∑ d ∈ Ico 256 384, (csvTarget d - cubic (fxx d)) * z d j

theorem fxRho_real (x : ℤ) (d : ℕ) : (fxRho x (csvRec d) : ℝ) = 10 ^ 34 * (csvTarget d - cubic (x / 10 ^ 10)) := by
  unfold fxRho csvTarget cubic
  push_cast
  split <;> norm_num <;> ring

theorem fxB2_real {j : ℕ} (hj : j < 20) :
    |((fxB1.getD j 0 : ℤ) / 10 ^ 10 : ℝ) + fxStep2 (fxz fxW511) j - ((fxB2.getD j 0 : ℤ) / 10 ^ 10 : ℝ)| ≤
      1 / 10 ^ 10 := by
  have h := List.all_eq_true.mp fxB2_ok j (List.mem_range.mpr hj)
  rw [decide_eq_true_eq, list_sum_range] at h
  have h' : |(fxB1.getD j 0 : ℝ) * (128 * 10 ^ 50) + 3 * 10 ^ 10 * (∑ t ∈ range 128,
      (fxRho (fxX.getD t 0) (csvRec (256 + t)) : ℝ) * fxZ fxW511 (csvRec (256 + t)) j) -
        (fxB2.getD j 0 : ℝ) * (128 * 10 ^ 50)| ≤ 128 * 10 ^ 50 := by exact_mod_cast h
  have e : (∑ t ∈ range 128, (fxRho (fxX.getD t 0) (csvRec (256 + t)) : ℝ) * fxZ fxW511 (csvRec (256 + t)) j) =
      10 ^ 50 * ∑ d ∈ Ico 256 384, (csvTarget d - cubic (fxx d)) * fxz fxW511 d j := by
    rw [sum_Ico_eq_sum_range, mul_sum]
    refine sum_congr rfl fun t _ => ?_
    rw [fxRho_real, fxx, fxz, Nat.add_sub_cancel_left]
    ring
  rw [e] at h'
  rw [fxStep2]
  generalize (∑ d ∈ Ico 256 384, (csvTarget d - cubic (fxx d)) * fxz fxW511 d j) = T at *
  generalize ((fxB1.getD j 0 : ℤ) : ℝ) = b1 at *
  generalize ((fxB2.getD j 0 : ℤ) : ℝ) = b2 at *
  rw [abs_le] at *
  norm_num at h' ⊢
  constructor <;> linarith [h'.1, h'.2]

theorem rest_le {x : ℝ} (hx : |x| ≤ 6) (d : ℕ) : |csvTarget d - cubic x| ≤ 3 := by
  have hx' := abs_le.mp hx
  have h3 : |x ^ 3| ≤ 216 := by
    rw [abs_pow]
    calc |x| ^ 3 ≤ 6 ^ 3 := pow_le_pow_left₀ (abs_nonneg _) hx 3
      _ = 216 := by norm_num
  rw [abs_le] at h3
  unfold csvTarget cubic
  split <;> rw [abs_le] <;> constructor <;> linarith [h3.1, h3.2, hx'.1, hx'.2]

/-- The inner product of every record with `beta` of lr_minibatch_toy.go on its file. -/
theorem mb_dot {z : ℕ → ℕ → ℝ}
    (hz : ∀ i < 2000, ∀ j < 20, |z i j - csvScore 511 i j| ≤ 1 / 10 ^ 8 ∧ |z i j| ≤ 3.33) {i : ℕ} (hi : i < 2000) :
    |∑ j ∈ range 20, z i j * csvStep2 (Ico 256 384) z (csvStep (Ico 128 256) z) j -
      (fxDot fxW511 fxB2 (csvRec i) : ℝ) / 10 ^ 26| ≤ 7 / 10 ^ 4 := by
  have hne : (Ico 128 256).Nonempty := ⟨128, by simp⟩
  have hne' : (Ico 256 384).Nonempty := ⟨256, by simp⟩
  have hlo : ∀ d ∈ Ico 128 256, d < 2000 := fun d hd => (mem_Ico.mp hd).2.trans (by norm_num)
  have hhi : ∀ d ∈ Ico 256 384, d < 2000 := fun d hd => (mem_Ico.mp hd).2.trans (by norm_num)
  have hn : ∀ i < 2000, ∀ j < 20, |z i j - fxz fxW511 i j| ≤ 2 / 10 ^ 8 := fun i hi j hj =>
    fxz_near rootOk511 (by norm_num) hj (by exact_mod_cast (hz i hi j hj).1)
  have hb : ∀ j < 20, |csvStep (Ico 128 256) z j - ((fxB1.getD j 0 : ℤ) / 10 ^ 10 : ℝ)| ≤ 4 / 10 ^ 8 := by
    intro j hj
    have a := abs_le.mp (csvStep_near (z := z) (z' := fxz fxW511) (j := j) hne fun d hd => hn d (hlo d hd) j hj)
    have b := abs_le.mp (stepOk_fxB1.real (by norm_num) (by norm_num) hj)
    rw [show 128 + 128 = 256 from rfl] at b
    rw [abs_le]
    norm_num at a b ⊢
    constructor <;> linarith [a.1, a.2, b.1, b.2]
  have hx : ∀ d ∈ Ico 256 384, |∑ k ∈ range 20, z d k * csvStep (Ico 128 256) z k - fxx d| ≤ 6 / 10 ^ 6 := by
    intro d hd
    have a := dot_near (hz d (hhi d hd) · · |>.2) (fun j hj => fxB_le fxB1_small hj) (hn d (hhi d hd)) hb
      (by norm_num) (by norm_num)
    rw [fxDot_real] at a
    have b := (fxX_real hd).1
    rw [abs_le] at a b ⊢
    norm_num at a b ⊢
    constructor <;> linarith [a.1, a.2, b.1, b.2]
  have hb2 : ∀ j < 20, |csvStep2 (Ico 256 384) z (csvStep (Ico 128 256) z) j -
      ((fxB2.getD j 0 : ℤ) / 10 ^ 10 : ℝ)| ≤ 1 / 10 ^ 5 := by
    intro j hj
    have a := abs_le.mp (hb j hj)
    have b := abs_le.mp (fxB2_real hj)
    have c : |3 / ((Ico 256 384).card : ℝ) * ∑ d ∈ Ico 256 384,
        ((csvTarget d - cubic (∑ k ∈ range 20, z d k * csvStep (Ico 128 256) z k)) * z d j -
          (csvTarget d - cubic (fxx d)) * fxz fxW511 d j)| ≤ 3 * (31 / 10 ^ 7) := by
      refine avg_le hne' fun d hd => ?_
      have x1 := hx d hd
      have x2 := (fxX_real hd).2
      generalize (∑ k ∈ range 20, z d k * csvStep (Ico 128 256) z k) = x at *
      have x3 : |x| ≤ 7 := by
        rw [abs_le] at *
        norm_num at x1
        constructor <;> linarith [x1.1, x1.2, x2.1, x2.2]
      have x4 := (cubic_near x3 (x2.trans (by norm_num))).trans (mul_le_mul_of_nonneg_left x1 (by norm_num))
      have x5 := rest_le x2 d
      have e : (csvTarget d - cubic x) * z d j - (csvTarget d - cubic (fxx d)) * fxz fxW511 d j =
          -(cubic x - cubic (fxx d)) * z d j + (csvTarget d - cubic (fxx d)) * (z d j - fxz fxW511 d j) := by ring
      rw [e]
      refine (abs_add_le _ _).trans ?_
      rw [abs_mul, abs_mul, abs_neg]
      have y1 := mul_le_mul x4 (hz d (hhi d hd) j hj).2 (abs_nonneg _) (by norm_num)
      have y2 := mul_le_mul x5 (hn d (hhi d hd) j hj) (abs_nonneg _) (by norm_num)
      norm_num at y1 y2 ⊢
      linarith
    rw [sum_sub_distrib, mul_sub] at c
    rw [fxStep2] at b
    rw [csvStep2]
    generalize (3 / ((Ico 256 384).card : ℝ) * ∑ d ∈ Ico 256 384,
        ((csvTarget d - cubic (∑ k ∈ range 20, z d k * csvStep (Ico 128 256) z k)) * z d j)) = t at *
    generalize (3 / ((Ico 256 384).card : ℝ) * ∑ d ∈ Ico 256 384,
        ((csvTarget d - cubic (fxx d)) * fxz fxW511 d j)) = t' at *
    rw [abs_le] at c ⊢
    norm_num at a b c ⊢
    constructor <;> linarith [a.1, a.2, b.1, b.2, c.1, c.2]
  have a := dot_near (hz i hi · · |>.2) (fun j hj => fxB_le fxB2_small hj) (hn i hi) hb2
      (by norm_num) (by norm_num)
  rw [fxDot_real] at a
  refine a.trans ?_
  norm_num

/-- No prediction of lr_minibatch_toy.go on its file is near the threshold. -/
theorem mb_plain {z : ℕ → ℕ → ℝ}
    (hz : ∀ i < 2000, ∀ j < 20, |z i j - csvScore 511 i j| ≤ 1 / 10 ^ 8 ∧ |z i j| ≤ 3.33) {i : ℕ} (hi : i < 2000) :
    let p := cubic (∑ j ∈ range 20, z i j * csvStep2 (Ico 256 384) z (csvStep (Ico 128 256) z) j)
    4 / 10 ^ 4 < |p - 1 / 2| ∧ (1 / 2 ≤ p ↔ 0 ≤ fxDot fxW511 fxB2 (csvRec i)) := by
  have h := mb_dot hz hi
  have hr := all_csv fx_range hi
  rw [Bool.and_eq_true, decide_eq_true_eq, decide_eq_true_eq] at hr
  obtain ⟨h1, h2⟩ := hr
  have h1' : (369 * 10 ^ 21 : ℝ) ≤ |(fxDot fxW511 fxB2 (csvRec i) : ℝ)| := by exact_mod_cast h1
  have h2' : |(fxDot fxW511 fxB2 (csvRec i) : ℝ)| ≤ (71 * 10 ^ 25 : ℝ) := by exact_mod_cast h2
  have h3 : 0 ≤ fxDot fxW511 fxB2 (csvRec i) ↔ (0 : ℝ) ≤ fxDot fxW511 fxB2 (csvRec i) := by
    exact_mod_cast Iff.rfl
  simp only
  rw [h3]
  have key : ∀ x : ℝ, 29 / 10 ^ 4 ≤ x → x ≤ 7.2 → 4 / 10 ^ 4 < x * (15 / 100 - 15 / 10000 * x ^ 2) := by
    intro x l u
    norm_num at l u ⊢
    rcases le_total x 1 with hx | hx
    · have : x ^ 2 ≤ 1 := by nlinarith
      nlinarith
    · have : x ^ 2 ≤ (36 / 5) ^ 2 := by nlinarith
      nlinarith
  have e : ∀ x : ℝ, cubic x - 1 / 2 = x * (15 / 100 - 15 / 10000 * x ^ 2) := fun x => by unfold cubic; ring
  generalize (∑ j ∈ range 20, z i j * csvStep2 (Ico 256 384) z (csvStep (Ico 128 256) z) j) = x at *
  generalize (fxDot fxW511 fxB2 (csvRec i) : ℝ) = k at *
  have h' := abs_le.mp h
  have h2'' := abs_le.mp h2'
  norm_num at h' h2''
  rcases le_total 0 k with hk | hk
  · rw [abs_of_nonneg hk] at h1'
    norm_num at h1'
    have := key x (by norm_num; linarith [h'.1]) (by norm_num; linarith [h'.2, h2''.2])
    have e' := e x
    rw [← e'] at this
    refine ⟨this.trans_le (le_abs_self _), ⟨fun _ => hk, fun _ => ?_⟩⟩
    show 1 / 2 ≤ cubic x
    norm_num at this
    linarith
  · rw [abs_of_nonpos hk] at h1'
    norm_num at h1'
    have := key (-x) (by norm_num; linarith [h'.2]) (by norm_num; linarith [h'.1, h2''.1])
    have e' : -(cubic x - 1 / 2) = -x * (15 / 100 - 15 / 10000 * (-x) ^ 2) := by rw [e x]; ring
    rw [← e'] at this
    refine ⟨this.trans_le (neg_le_abs _), ⟨fun hp => ?_, fun hk' => ?_⟩⟩
    · have hp : 1 / 2 ≤ cubic x := hp
      norm_num at this
      linarith
    · linarith

end MK.Lr
