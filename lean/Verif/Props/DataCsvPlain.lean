import Verif.Props.DataCsvFix
import Verif.Props.ToyCsvPlain

/-!
# C79: what lr.go and lr_minibatch.go compute from lr/data.csv
-/

noncomputable section

namespace MK.Lr

open Finset

/-- 1 for the records of class 0. -/
def dataTarget (i : ℕ) : ℝ := if dataLabel (dataRec i) = 0 then 1 else 0

/-- The weights of the iterations. -/
def dataEta : ℕ → ℚ
  | 0 => 1
  | 1 => 161803 / 100000
  | 2 => 2193527 / 1000000
  | 3 => 274979 / 100000
  | _ => 0

/-- The constants of lr.go and lr_minibatch.go, as reals. -/
def dataHyper (n : ℕ) : Hyper ℝ where
  gamma := 3 / 10
  eta a := (dataEta a : ℝ)
  c3 := -15 / 10000
  c1 := 15 / 100
  c0 := 1 / 2
  batchSize := n

/-- `beta` and `v` after `t` steps on real data `Z` with the records `S a` in step `a`. -/
def dataRun (n : ℕ) (S : ℕ → Finset ℕ) (Z : ℕ → ℕ → ℝ) (t : ℕ) : (ℕ → ℝ) × (ℕ → ℝ) :=
  nesterovRun (dataHyper n) (fun a => gradOn (dataHyper n) 7 (S a) Z dataTarget) t (fun _ => 0, fun _ => 0)

theorem sigma3_data (n : ℕ) (x : ℝ) : sigma3 (dataHyper n) x = cubic x := rfl

/-! ## The tables as reals -/

/-- Entry `j` of a table. -/
def tb (l : List ℤ) (j : ℕ) : ℝ := (l.getD j 0 : ℤ) / 10 ^ 15

theorem fdDot_sum (v : List ℤ) (r : ℕ) : fdDot v r = ∑ j ∈ range 7, fdZ r j * v.getD j 0 := by
  simp only [sum_range_succ, sum_range_zero]
  show fdZ r 0 * v.getD 0 0 + (fdZ r 1 * v.getD 1 0 + (fdZ r 2 * v.getD 2 0 + (fdZ r 3 * v.getD 3 0 +
    (fdZ r 4 * v.getD 4 0 + (fdZ r 5 * v.getD 5 0 + fdZ r 6 * v.getD 6 0))))) = _
  generalize v.getD 0 0 = v0
  generalize v.getD 1 0 = v1
  generalize v.getD 2 0 = v2
  generalize v.getD 3 0 = v3
  generalize v.getD 4 0 = v4
  generalize v.getD 5 0 = v5
  generalize v.getD 6 0 = v6
  ring

theorem fdDot_real (v : List ℤ) {i : ℕ} (hi : i < 10000) :
    ∑ j ∈ range 7, (dataVal i j : ℝ) * tb v j = (fdDot v (dataRec i) : ℝ) / 10 ^ 34 := by
  rw [fdDot_sum]
  push_cast
  rw [sum_div]
  refine sum_congr rfl fun j hj => ?_
  rw [dataVal_eq hi (mem_range.mp hj), tb]
  ring

theorem fdRest_real (x : ℤ) (i : ℕ) :
    (fdRest x (dataRec i) : ℝ) = 10 ^ 106 * (cubic (x / 10 ^ 34) - dataTarget i) := by
  have e : fdRest x (dataRec i) = x * (-15 * (x * x) + 1500 * 10 ^ 68) +
      (if dataLabel (dataRec i) = 0 then -(5000 * 10 ^ 102) else 5000 * 10 ^ 102) := by
    unfold fdRest
    show x * (-15 * (x * x) + _) + _ = _
    have hb : Nat.beq (Nat.mod (dataRec i) 10) 0 = decide (dataLabel (dataRec i) = 0) := by
      rw [Bool.eq_iff_iff, decide_eq_true_eq]
      exact Nat.beq_eq ▸ Iff.rfl
    rw [hb]
    by_cases h : dataLabel (dataRec i) = 0
    · rw [decide_eq_true h, if_pos h]; norm_num
    · rw [decide_eq_false h, if_neg h]; norm_num
  rw [e]
  unfold cubic dataTarget
  split <;> push_cast <;> ring

theorem foldr_add_int (l : List ℤ) : l.foldr Int.add 0 = l.sum := rfl

theorem foldr_add_nat (l : List ℕ) : l.foldr Nat.add 0 = l.sum := rfl

theorem sum_data {M : Type*} [AddCommMonoid M] (f : ℕ → M) {a n : ℕ} (h : a + n ≤ 10000) :
    ∑ d ∈ Ico a (a + n), f (dataRec d) = (((dataCsv.drop a).take n).map f).sum := by
  rw [sum_Ico_eq_sum_range, add_tsub_cancel_left, ← sum_getD_int f _ n (by
    rw [List.length_drop, dataCsv_length]; omega)]
  refine sum_congr rfl fun t _ => ?_
  rw [dataRec]
  congr 1
  simp [List.getD_eq_getElem?_getD]

theorem fdGrad_real (m : ℕ) (v : List ℤ) {a n j : ℕ} (h : a + n ≤ 10000) (hj : j < 7) :
    gradOn (dataHyper m) 7 (Ico a (a + n)) (fun i j => (dataVal i j : ℝ)) dataTarget (tb v) j =
      (fdGrad v ((dataCsv.drop a).take n) j : ℝ) / 10 ^ 125 := by
  rw [fdGrad, foldr_add_int, ← sum_data (fun r => Int.mul (fdRest (fdDot v r) r) (fdZ r j)) h, gradOn]
  push_cast
  rw [sum_div]
  refine sum_congr rfl fun d hd => ?_
  have hd : d < 10000 := (mem_Ico.mp hd).2.trans_le h
  show _ = ((fdRest (fdDot v (dataRec d)) (dataRec d) * fdZ (dataRec d) j : ℤ) : ℝ) / 10 ^ 125
  rw [fdDot_real v hd, sigma3_data, dataVal_eq hd hj]
  push_cast
  rw [fdRest_real]
  generalize cubic ((fdDot v (dataRec d) : ℝ) / 10 ^ 34) - dataTarget d = c
  ring

/-- A checked step. -/
theorem fdStep_real {a n : ℕ} {v b : List ℤ} (h : fdStepOk a n v b = true) (han : a + n ≤ 10000) (hn : 0 < n) :
    (∀ d ∈ Ico a (a + n), |∑ k ∈ range 7, (dataVal d k : ℝ) * tb v k| ≤ 2) ∧
    ∀ j < 7, |tb v j - 3 / 10 / n * gradOn (dataHyper n) 7 (Ico a (a + n)) (fun i j => (dataVal i j : ℝ))
      dataTarget (tb v) j - tb b j| ≤ 1 / 10 ^ 15 := by
  rw [fdStepOk, Bool.and_eq_true] at h
  obtain ⟨h1, h2⟩ := h
  constructor
  · intro d hd
    rw [mem_Ico] at hd
    have hlt : d < 10000 := hd.2.trans_le han
    have hm : dataRec d ∈ (dataCsv.drop a).take n := by
      rw [List.mem_iff_getElem?]
      refine ⟨d - a, ?_⟩
      rw [List.getElem?_take_of_lt (by omega), List.getElem?_drop, Nat.add_sub_cancel' hd.1, dataRec,
        List.getElem?_eq_getElem (by rw [dataCsv_length]; exact hlt),
        List.getD_eq_getElem _ _ (by rw [dataCsv_length]; exact hlt)]
    have h3 := Nat.le_of_ble_eq_true (List.all_eq_true.mp h1 _ hm)
    rw [fdDot_real v hlt]
    generalize fdDot v (dataRec d) = x at *
    have h4 : |x| ≤ 2 * 10 ^ 34 := by
      rw [Int.abs_eq_natAbs]
      have : ((x.natAbs : ℕ) : ℤ) ≤ ((20000000000000000000000000000000000 : ℕ) : ℤ) := by exact_mod_cast h3
      refine this.trans ?_
      norm_num
    have h5 : |(x : ℝ)| ≤ 2 * 10 ^ 34 := by exact_mod_cast h4
    rw [abs_div, abs_of_pos (show (0 : ℝ) < 10 ^ 34 by norm_num), div_le_iff₀ (by norm_num)]
    exact h5
  · intro j hj
    have h3 := Nat.le_of_ble_eq_true (List.all_eq_true.mp h2 j (List.mem_range.mpr hj))
    rw [fdGrad_real n v han hj, tb, tb]
    generalize fdGrad v ((dataCsv.drop a).take n) j = g at *
    generalize v.getD j 0 = x at *
    generalize b.getD j 0 = y at *
    have h4 : |(x - y) * ((n : ℤ) * 10 ^ 126) - 3 * 10 ^ 15 * g| ≤ (n : ℤ) * 10 ^ 126 := by
      rw [Int.abs_eq_natAbs]
      exact_mod_cast h3
    have h5 : |((x : ℝ) - y) * ((n : ℝ) * 10 ^ 126) - 3 * 10 ^ 15 * g| ≤ (n : ℝ) * 10 ^ 126 := by
      exact_mod_cast h4
    have hn' : (0 : ℝ) < n := by exact_mod_cast hn
    have e : (x : ℝ) / 10 ^ 15 - 3 / 10 / n * (g / 10 ^ 125) - y / 10 ^ 15 =
        (((x : ℝ) - y) * ((n : ℝ) * 10 ^ 126) - 3 * 10 ^ 15 * g) / (n * 10 ^ 126 * 10 ^ 15) := by
      field_simp
      ring
    rw [e, abs_div, abs_of_pos (show (0 : ℝ) < n * 10 ^ 126 * 10 ^ 15 by positivity),
      div_le_div_iff₀ (by positivity) (by positivity)]
    nlinarith

theorem fdMom_real {eta : ℤ} {b b' v' : List ℤ} (h : fdMomOk eta b b' v' = true) {j : ℕ} (hj : j < 7) :
    |(1 - (eta : ℝ) / 10 ^ 6) * tb b' j + (eta : ℝ) / 10 ^ 6 * tb b j - tb v' j| ≤ 1 / 10 ^ 15 ∧
      |tb v' j| ≤ 1 ∧ |tb b' j| ≤ 1 := by
  have h1 := List.all_eq_true.mp h j (List.mem_range.mpr hj)
  rw [Bool.and_eq_true, Bool.and_eq_true, decide_eq_true_eq, decide_eq_true_eq, decide_eq_true_eq] at h1
  obtain ⟨⟨h1, h2⟩, h3⟩ := h1
  simp only [tb]
  generalize b.getD j 0 = x at *
  generalize b'.getD j 0 = y at *
  generalize v'.getD j 0 = w at *
  have h1' : |(10 ^ 6 - (eta : ℝ)) * y + eta * x - 10 ^ 6 * w| ≤ 10 ^ 6 := by exact_mod_cast h1
  have h2' : |(w : ℝ)| ≤ 10 ^ 15 := by exact_mod_cast h2
  have h3' : |(y : ℝ)| ≤ 10 ^ 15 := by exact_mod_cast h3
  refine ⟨?_, ?_, ?_⟩
  · have e : (1 - (eta : ℝ) / 10 ^ 6) * (y / 10 ^ 15) + (eta : ℝ) / 10 ^ 6 * (x / 10 ^ 15) - w / 10 ^ 15 =
        ((10 ^ 6 - (eta : ℝ)) * y + eta * x - 10 ^ 6 * w) / (10 ^ 6 * 10 ^ 15) := by
      field_simp
    rw [e, abs_div, abs_of_pos (show (0 : ℝ) < 10 ^ 6 * 10 ^ 15 by norm_num),
      div_le_div_iff₀ (by norm_num) (by norm_num)]
    norm_num at h1' ⊢
    linarith
  · rw [abs_div, abs_of_pos (show (0 : ℝ) < 10 ^ 15 by norm_num), div_le_one (by norm_num)]
    exact h2'
  · rw [abs_div, abs_of_pos (show (0 : ℝ) < 10 ^ 15 by norm_num), div_le_one (by norm_num)]
    exact h3'

/-! ## Perturbation -/

theorem dot_near7 {p q p' q' : ℕ → ℝ} {P Q e f : ℝ} (hP : ∀ j < 7, |p j| ≤ P) (hQ : ∀ j < 7, |q' j| ≤ Q)
    (he : ∀ j < 7, |p j - p' j| ≤ e) (hf : ∀ j < 7, |q j - q' j| ≤ f) (P0 : 0 ≤ P) (e0 : 0 ≤ e) :
    |∑ j ∈ range 7, p j * q j - ∑ j ∈ range 7, p' j * q' j| ≤ 7 * (P * f + e * Q) := by
  rw [← sum_sub_distrib]
  refine (abs_sum_le_sum_abs _ _).trans ?_
  refine (sum_le_sum (g := fun _ => P * f + e * Q) fun j hj => ?_).trans (by simp; linarith)
  have hj := mem_range.mp hj
  have e1 : p j * q j - p' j * q' j = p j * (q j - q' j) + (p j - p' j) * q' j := by ring
  rw [e1]
  refine (abs_add_le _ _).trans (add_le_add ?_ ?_)
  · rw [abs_mul]
    exact mul_le_mul (hP j hj) (hf j hj) (abs_nonneg _) P0
  · rw [abs_mul]
    exact mul_le_mul (he j hj) (hQ j hj) (abs_nonneg _) e0

theorem dataRest_le {x : ℝ} (hx : |x| ≤ 2) (d : ℕ) : |cubic x - dataTarget d| ≤ 1 := by
  have hx' := abs_le.mp hx
  have h3 : |x ^ 3| ≤ 8 := by
    rw [abs_pow]
    calc |x| ^ 3 ≤ 2 ^ 3 := pow_le_pow_left₀ (abs_nonneg _) hx 3
      _ = 8 := by norm_num
  rw [abs_le] at h3
  unfold dataTarget cubic
  split <;> rw [abs_le] <;> constructor <;> linarith [h3.1, h3.2, hx'.1, hx'.2]

/-- `z` is the file up to `10^-15`. -/
def NearData (z : ℕ → ℕ → ℝ) : Prop := ∀ i < 10000, ∀ j < 7, |z i j - dataVal i j| ≤ 1 / 10 ^ 15

theorem NearData.le {z : ℕ → ℕ → ℝ} (h : NearData z) {i j : ℕ} (hi : i < 10000) (hj : j < 7) : |z i j| ≤ 9 := by
  have a := abs_le.mp (h i hi j hj)
  have b := abs_le.mp (dataVal_le hi hj)
  rw [abs_le]
  norm_num at a b ⊢
  constructor <;> linarith [a.1, a.2, b.1, b.2]

theorem grad_near {z : ℕ → ℕ → ℝ} (hz : NearData z) {a n : ℕ} {v V : ℕ → ℝ} {f : ℝ} (han : a + n ≤ 10000)
    (hn : 0 < n) (hV : ∀ j < 7, |V j| ≤ 1) (hf : ∀ j < 7, |v j - V j| ≤ f) (h1 : 1 / 10 ^ 15 ≤ f) (h2 : f ≤ 1 / 20)
    (hX : ∀ d ∈ Ico a (a + n), |∑ k ∈ range 7, (dataVal d k : ℝ) * V k| ≤ 2) {j : ℕ} (hj : j < 7) :
    |3 / 10 / n * gradOn (dataHyper n) 7 (Ico a (a + n)) z dataTarget v j -
      3 / 10 / n * gradOn (dataHyper n) 7 (Ico a (a + n)) (fun i j => (dataVal i j : ℝ)) dataTarget V j| ≤ 30 * f := by
  have hn' : (0 : ℝ) < n := by exact_mod_cast hn
  have key : ∀ d ∈ Ico a (a + n), |(cubic (∑ k ∈ range 7, z d k * v k) - dataTarget d) * z d j -
      (cubic (∑ k ∈ range 7, (dataVal d k : ℝ) * V k) - dataTarget d) * dataVal d j| ≤ 100 * f := by
    intro d hd
    have hlt : d < 10000 := (mem_Ico.mp hd).2.trans_le han
    have x1 := dot_near7 (fun k hk => hz.le hlt hk) hV (hz d hlt) hf (by norm_num) (by norm_num)
    have x2 := hX d hd
    generalize (∑ k ∈ range 7, z d k * v k) = x at *
    generalize (∑ k ∈ range 7, (dataVal d k : ℝ) * V k) = X at *
    have x1' : |x - X| ≤ 70 * f := x1.trans (by linarith)
    have x3 : |x| ≤ 7 := by
      rw [abs_le] at *
      constructor <;> linarith [x1'.1, x1'.2, x2.1, x2.2]
    have x4 := (cubic_near x3 (x2.trans (by norm_num))).trans (mul_le_mul_of_nonneg_left x1' (by norm_num))
    have x5 := dataRest_le x2 d
    have e : (cubic x - dataTarget d) * z d j - (cubic X - dataTarget d) * dataVal d j =
        (cubic x - cubic X) * z d j + (cubic X - dataTarget d) * (z d j - dataVal d j) := by ring
    rw [e]
    refine (abs_add_le _ _).trans ?_
    rw [abs_mul, abs_mul]
    have y1 := mul_le_mul x4 (hz.le hlt hj) (abs_nonneg _) (by linarith)
    have y2 := mul_le_mul x5 (hz d hlt j hj) (abs_nonneg _) (by norm_num)
    linarith
  rw [← mul_sub, abs_mul, abs_of_pos (by positivity), gradOn, gradOn, ← sum_sub_distrib]
  have h3 : |∑ d ∈ Ico a (a + n), ((cubic (∑ k ∈ range 7, z d k * v k) - dataTarget d) * z d j -
      (cubic (∑ k ∈ range 7, (dataVal d k : ℝ) * V k) - dataTarget d) * dataVal d j)| ≤ n * (100 * f) := by
    refine (abs_sum_le_sum_abs _ _).trans ((sum_le_sum key).trans ?_)
    rw [sum_const, Nat.card_Ico, add_tsub_cancel_left, nsmul_eq_mul]
  calc 3 / 10 / (n : ℝ) * _ ≤ 3 / 10 / (n : ℝ) * (n * (100 * f)) := mul_le_mul_of_nonneg_left h3 (by positivity)
    _ = 30 * f := by field_simp; norm_num

/-- The checked tables of a run of four steps with `n` records from `a t` on in step `t`. -/
structure RunTables (n : ℕ) (a : ℕ → ℕ) (B V : ℕ → List ℤ) : Prop where
  pos : 0 < n
  inside : ∀ t < 4, a t + n ≤ 10000
  zeroB : ∀ j, tb (B 0) j = 0
  zeroV : ∀ j, tb (V 0) j = 0
  step : ∀ t < 4, fdStepOk (a t) n (V t) (B (t + 1)) = true
  mom : ∀ t < 4, ∃ eta : ℤ, ((dataEta t : ℚ) : ℝ) = (eta : ℝ) / 10 ^ 6 ∧ 0 ≤ eta ∧ eta ≤ 3 * 10 ^ 6 ∧
    fdMomOk eta (B t) (B (t + 1)) (V (t + 1)) = true

theorem RunTables.leV {n : ℕ} {a : ℕ → ℕ} {B V : ℕ → List ℤ} (h : RunTables n a B V) {t : ℕ} (ht : t ≤ 4) {j : ℕ}
    (hj : j < 7) : |tb (V t) j| ≤ 1 := by
  match t with
  | 0 => rw [h.zeroV, abs_zero]; norm_num
  | t + 1 =>
    obtain ⟨eta, -, -, -, hm⟩ := h.mom t (by omega)
    exact (fdMom_real hm hj).2.1

theorem RunTables.leB {n : ℕ} {a : ℕ → ℕ} {B V : ℕ → List ℤ} (h : RunTables n a B V) {t : ℕ} (ht : t ≤ 4) {j : ℕ}
    (hj : j < 7) : |tb (B t) j| ≤ 1 := by
  match t with
  | 0 => rw [h.zeroB, abs_zero]; norm_num
  | t + 1 =>
    obtain ⟨eta, -, -, -, hm⟩ := h.mom t (by omega)
    exact (fdMom_real hm hj).2.2

/-- The run stays near the tables. -/
theorem RunTables.near {n : ℕ} {a : ℕ → ℕ} {B V : ℕ → List ℤ} (h : RunTables n a B V) {z : ℕ → ℕ → ℝ}
    (hz : NearData z) {t : ℕ} (ht : t ≤ 4) {j : ℕ} (hj : j < 7) :
    |(dataRun n (fun t => Ico (a t) (a t + n)) z t).1 j - tb (B t) j| ≤ 100 ^ t / 10 ^ 15 ∧
    |(dataRun n (fun t => Ico (a t) (a t + n)) z t).2 j - tb (V t) j| ≤ 100 ^ t / 10 ^ 15 := by
  induction t generalizing j with
  | zero =>
    rw [h.zeroB, h.zeroV]
    simp only [dataRun, nesterovRun, sub_zero, abs_zero]
    exact ⟨by positivity, by positivity⟩
  | succ t ih =>
    have ht' : t < 4 := by omega
    have ih1 := fun k (hk : k < 7) => (ih (by omega) hk).1
    have ih2 := fun k (hk : k < 7) => (ih (by omega) hk).2
    obtain ⟨s1, s2⟩ := fdStep_real (h.step t ht') (h.inside t ht') h.pos
    obtain ⟨eta, he, e0, e3, hm⟩ := h.mom t ht'
    obtain ⟨m1, -, -⟩ := fdMom_real hm hj
    have hp : (1 : ℝ) ≤ 100 ^ t := one_le_pow₀ (by norm_num)
    have hp' : (100 : ℝ) ^ t ≤ 100 ^ 3 := pow_le_pow_right₀ (by norm_num) (by omega)
    have g := grad_near hz (h.inside t ht') h.pos (fun k hk => h.leV (by omega) hk) ih2
      (by rw [div_le_div_iff_of_pos_right (by norm_num)]; exact hp)
      (by rw [div_le_div_iff₀ (by norm_num) (by norm_num)]; norm_num at hp' ⊢; linarith) s1 hj
    have s := s2 j hj
    have i1 := ih1 j hj
    have i2 := ih2 j hj
    have e0' : (0 : ℝ) ≤ (eta : ℝ) / 10 ^ 6 := by
      have : (0 : ℝ) ≤ eta := by exact_mod_cast e0
      positivity
    have e3' : (eta : ℝ) / 10 ^ 6 ≤ 3 := by
      have : (eta : ℝ) ≤ 3 * 10 ^ 6 := by exact_mod_cast e3
      rw [div_le_iff₀ (by norm_num)]; exact this
    rw [← he] at m1 e0' e3'
    set st := dataRun n (fun t => Ico (a t) (a t + n)) z t with hst
    have hb : (dataRun n (fun t => Ico (a t) (a t + n)) z (t + 1)).1 j = st.2 j - 3 / 10 / n *
        gradOn (dataHyper n) 7 (Ico (a t) (a t + n)) z dataTarget st.2 j := rfl
    have hv : (dataRun n (fun t => Ico (a t) (a t + n)) z (t + 1)).2 j = (1 - (dataEta t : ℝ)) *
        (dataRun n (fun t => Ico (a t) (a t + n)) z (t + 1)).1 j + (dataEta t : ℝ) * st.1 j := rfl
    rw [hv]
    have n1 : |(dataRun n (fun t => Ico (a t) (a t + n)) z (t + 1)).1 j - tb (B (t + 1)) j| ≤
        32 * (100 ^ t / 10 ^ 15) := by
      rw [hb]
      generalize 3 / 10 / (n : ℝ) * gradOn (dataHyper n) 7 (Ico (a t) (a t + n)) z dataTarget st.2 j = G at *
      generalize 3 / 10 / (n : ℝ) * gradOn (dataHyper n) 7 (Ico (a t) (a t + n)) (fun i j => (dataVal i j : ℝ))
        dataTarget (tb (V t)) j = G' at *
      have hp2 : (1 : ℝ) / 10 ^ 15 ≤ 100 ^ t / 10 ^ 15 := by
        rw [div_le_div_iff_of_pos_right (by norm_num)]; exact hp
      generalize (100 : ℝ) ^ t / 10 ^ 15 = q at *
      generalize (1 : ℝ) / 10 ^ 15 = u at *
      rw [abs_le] at *
      constructor <;> linarith [g.1, g.2, s.1, s.2, i2.1, i2.2]
    have hp2 : (1 : ℝ) / 10 ^ 15 ≤ 100 ^ t / 10 ^ 15 := by
      rw [div_le_div_iff_of_pos_right (by norm_num)]; exact hp
    have hq : (100 : ℝ) ^ (t + 1) / 10 ^ 15 = 100 * (100 ^ t / 10 ^ 15) := by rw [pow_succ]; ring
    rw [hq]
    have q0 : (0 : ℝ) ≤ 100 ^ t / 10 ^ 15 := by positivity
    generalize (dataRun n (fun t => Ico (a t) (a t + n)) z (t + 1)).1 j = b' at *
    generalize st.1 j = b at *
    generalize (dataEta t : ℝ) = η at *
    generalize (100 : ℝ) ^ t / 10 ^ 15 = q at *
    generalize (1 : ℝ) / 10 ^ 15 = u at *
    generalize tb (B (t + 1)) j = B' at *
    generalize tb (B t) j = B0 at *
    generalize tb (V (t + 1)) j = V' at *
    refine ⟨n1.trans (by linarith), ?_⟩
    have e : (1 - η) * b' + η * b - V' = (1 - η) * (b' - B') + η * (b - B0) + ((1 - η) * B' + η * B0 - V') := by ring
    rw [e]
    refine (abs_add_le _ _).trans ?_
    have t1 : |(1 - η) * (b' - B')| ≤ 2 * (32 * q) := by
      rw [abs_mul]
      refine mul_le_mul ?_ n1 (abs_nonneg _) (by norm_num)
      rw [abs_le]; constructor <;> linarith
    have t2 : |η * (b - B0)| ≤ 3 * q := by
      rw [abs_mul]
      refine mul_le_mul ?_ i1 (abs_nonneg _) (by norm_num)
      rw [abs_of_nonneg e0']; exact e3'
    have t3 := abs_add_le ((1 - η) * (b' - B')) (η * (b - B0))
    linarith

end MK.Lr
