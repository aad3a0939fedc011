import Verif.Props.DataCsvPlain
import Verif.Props.ToyCsvResult

/-!
# C79: lr.go and lr_minibatch.go on lr/data.csv
-/

noncomputable section

namespace MK.Lr

open Finset
open Utils (readData)

/-- `beta` and `v` of lr.go after `t` iterations, in exact arithmetic on the data `Z`. -/
def lrRun (Z : ℕ → ℕ → ℝ) (t : ℕ) : (ℕ → ℝ) × (ℕ → ℝ) := dataRun 2048 (fun _ => range 2048) Z t

/-- `beta` and `v` of lr_minibatch.go after `t` iterations, in exact arithmetic on the data `Z`. -/
def mbRun (Z : ℕ → ℕ → ℝ) (t : ℕ) : (ℕ → ℝ) × (ℕ → ℝ) :=
  dataRun 512 (fun a => Ico (512 * a) (512 * a + 512)) Z t

/-- The predictions for record `i` of the two trained models. -/
def lrPredict (Z : ℕ → ℕ → ℝ) (i : ℕ) : ℝ := cubic (∑ j ∈ range 7, Z i j * (lrRun Z 4).1 j)

@[inherit_doc lrPredict]
def mbPredict (Z : ℕ → ℕ → ℝ) (i : ℕ) : ℝ := cubic (∑ j ∈ range 7, Z i j * (mbRun Z 4).1 j)

/-- The file as reals. -/
def dataReal (i j : ℕ) : ℝ := dataVal i j

theorem nearData_self : NearData dataReal := fun i _ j _ => by
  rw [dataReal, sub_self, abs_zero]; norm_num

theorem tb_zero (j : ℕ) : tb [0, 0, 0, 0, 0, 0, 0] j = 0 := by
  have : ([0, 0, 0, 0, 0, 0, 0] : List ℤ).getD j 0 = 0 := by
    rcases lt_or_ge j 7 with h | h
    · interval_cases j <;> rfl
    · exact List.getD_eq_default _ _ h
  rw [tb, this]; simp

theorem lrTables : RunTables 2048 (fun _ => 0) lrB lrV where
  pos := by norm_num
  inside _ _ := by norm_num
  zeroB := tb_zero
  zeroV := tb_zero
  step t ht := by
    match t, ht with
    | 0, _ => exact lrStep0
    | 1, _ => exact lrStep1
    | 2, _ => exact lrStep2
    | 3, _ => exact lrStep3
  mom t ht := by
    match t, ht with
    | 0, _ => exact ⟨1000000, by norm_num [dataEta], by norm_num, by norm_num, lrMom0⟩
    | 1, _ => exact ⟨1618030, by norm_num [dataEta], by norm_num, by norm_num, lrMom1⟩
    | 2, _ => exact ⟨2193527, by norm_num [dataEta], by norm_num, by norm_num, lrMom2⟩
    | 3, _ => exact ⟨2749790, by norm_num [dataEta], by norm_num, by norm_num, lrMom3⟩

theorem mbTables : RunTables 512 (fun t => 512 * t) mbB mbV where
  pos := by norm_num
  inside t ht := by omega
  zeroB := tb_zero
  zeroV := tb_zero
  step t ht := by
    match t, ht with
    | 0, _ => exact mbStep0
    | 1, _ => exact mbStep1
    | 2, _ => exact mbStep2
    | 3, _ => exact mbStep3
  mom t ht := by
    match t, ht with
    | 0, _ => exact ⟨1000000, by norm_num [dataEta], by norm_num, by norm_num, mbMom0⟩
    | 1, _ => exact ⟨1618030, by norm_num [dataEta], by norm_num, by norm_num, mbMom1⟩
    | 2, _ => exact ⟨2193527, by norm_num [dataEta], by norm_num, by norm_num, mbMom2⟩
    | 3, _ => exact ⟨2749790, by norm_num [dataEta], by norm_num, by norm_num, mbMom3⟩

theorem run_bound {t : ℕ} (ht : t ≤ 4) : (100 : ℝ) ^ t / 10 ^ 15 ≤ 1 / 10 ^ 7 := by
  have : (100 : ℝ) ^ t ≤ 100 ^ 4 := pow_le_pow_right₀ (by norm_num) ht
  rw [div_le_div_iff₀ (by norm_num) (by norm_num)]
  norm_num at this ⊢
  linarith

theorem lrRun_near {z : ℕ → ℕ → ℝ} (hz : NearData z) {t : ℕ} (ht : t ≤ 4) {j : ℕ} (hj : j < 7) :
    |(lrRun z t).1 j - tb (lrB t) j| ≤ 1 / 10 ^ 7 ∧ |(lrRun z t).2 j - tb (lrV t) j| ≤ 1 / 10 ^ 7 := by
  have h := lrTables.near hz ht hj
  have e : (fun _ : ℕ => Ico 0 (0 + 2048)) = fun _ => range 2048 := by rw [zero_add, Nat.Ico_zero_eq_range]
  rw [e] at h
  exact ⟨h.1.trans (run_bound ht), h.2.trans (run_bound ht)⟩

theorem mbRun_near {z : ℕ → ℕ → ℝ} (hz : NearData z) {t : ℕ} (ht : t ≤ 4) {j : ℕ} (hj : j < 7) :
    |(mbRun z t).1 j - tb (mbB t) j| ≤ 1 / 10 ^ 7 ∧ |(mbRun z t).2 j - tb (mbV t) j| ≤ 1 / 10 ^ 7 := by
  have h := mbTables.near hz ht hj
  exact ⟨h.1.trans (run_bound ht), h.2.trans (run_bound ht)⟩

/-- The inner product of a record with `beta`. -/
theorem data_dot {z : ℕ → ℕ → ℝ} (hz : NearData z) {b : ℕ → ℝ} {B : List ℤ} (hB : ∀ j < 7, |tb B j| ≤ 1)
    (hb : ∀ j < 7, |b j - tb B j| ≤ 1 / 10 ^ 7) {i : ℕ} (hi : i < 10000) :
    |∑ j ∈ range 7, z i j * b j - (fdDot B (dataRec i) : ℝ) / 10 ^ 34| ≤ 64 / 10 ^ 7 := by
  rw [← fdDot_real B hi]
  refine (dot_near7 (fun k hk => hz.le hi hk) hB (hz i hi) hb (by norm_num) (by norm_num)).trans ?_
  norm_num

/-! ## All records -/

/-- The sign of the inner product decides, and no prediction is near the threshold. -/
theorem far_real {B : List ℤ} {lo r : ℕ} (h : fdFar B lo r = true) {x : ℝ} (hl : 171000000000000000000000000000 ≤ lo)
    (hx : |x - (fdDot B r : ℝ) / 10 ^ 34| ≤ 64 / 10 ^ 7) :
    |cubic x - 1 / 2| > 143 / 1000 * (lo / 10 ^ 34 - 64 / 10 ^ 7) ∧ (1 / 2 ≤ cubic x ↔ 0 ≤ fdDot B r) := by
  rw [fdFar, Bool.and_eq_true] at h
  obtain ⟨h1, h2⟩ := h
  have h1 := Nat.le_of_ble_eq_true h1
  have h2 := Nat.le_of_ble_eq_true h2
  generalize fdDot B r = k at *
  have h1' : (lo : ℝ) ≤ |(k : ℝ)| := by
    have : (lo : ℤ) ≤ |k| := by rw [Int.abs_eq_natAbs]; exact_mod_cast h1
    exact_mod_cast this
  have h2' : |(k : ℝ)| ≤ 2 * 10 ^ 34 := by
    have : |k| ≤ ((20000000000000000000000000000000000 : ℕ) : ℤ) := by
      rw [Int.abs_eq_natAbs]; exact_mod_cast h2
    have : |(k : ℝ)| ≤ ((20000000000000000000000000000000000 : ℕ) : ℝ) := by exact_mod_cast this
    refine this.trans ?_
    norm_num
  have hlo : (171000000000000000000000000000 : ℝ) ≤ lo := by exact_mod_cast hl
  have h3 : 0 ≤ k ↔ (0 : ℝ) ≤ k := by exact_mod_cast Iff.rfl
  rw [h3]
  have key : ∀ y u : ℝ, 0 < u → u ≤ y → y ≤ 2 + 64 / 10 ^ 7 → 143 / 1000 * u < y * (15 / 100 - 15 / 10000 * y ^ 2) := by
    intro y u u0 l r
    norm_num at r
    have : y ^ 2 ≤ 4.0001 := by norm_num; nlinarith
    have h : 143 / 1000 * y ≤ y * (15 / 100 - 15 / 10000 * y ^ 2) - y * (1 / 10 ^ 10) := by
      norm_num at this ⊢
      nlinarith
    have : 0 < y * (1 / 10 ^ 10) := mul_pos (u0.trans_le l) (by norm_num)
    linarith
  have e : ∀ x : ℝ, cubic x - 1 / 2 = x * (15 / 100 - 15 / 10000 * x ^ 2) := fun x => by unfold cubic; ring
  generalize (k : ℝ) = k at *
  generalize (lo : ℝ) = l at *
  have h' := abs_le.mp hx
  have h2'' := abs_le.mp h2'
  have u0 : 0 < l / 10 ^ 34 - 64 / 10 ^ 7 := by
    have : (171000000000000000000000000000 : ℝ) / 10 ^ 34 ≤ l / 10 ^ 34 :=
      div_le_div_of_nonneg_right hlo (by norm_num)
    norm_num at this ⊢
    linarith
  have hk2 : k / 10 ^ 34 ≤ 2 := by rw [div_le_iff₀ (by norm_num)]; exact h2''.2
  have hk2' : -2 ≤ k / 10 ^ 34 := by rw [le_div_iff₀ (by norm_num)]; linarith [h2''.1]
  rcases le_total 0 k with hk | hk
  · rw [abs_of_nonneg hk] at h1'
    have hd : l / 10 ^ 34 ≤ k / 10 ^ 34 := div_le_div_of_nonneg_right h1' (by norm_num)
    have := key x _ u0 (by linarith [h'.1]) (by linarith [h'.2])
    rw [← e x] at this
    refine ⟨this.trans_le (le_abs_self _), ⟨fun _ => hk, fun _ => ?_⟩⟩
    linarith
  · rw [abs_of_nonpos hk] at h1'
    have hd : l / 10 ^ 34 ≤ -k / 10 ^ 34 := div_le_div_of_nonneg_right h1' (by norm_num)
    rw [neg_div] at hd
    have := key (-x) _ u0 (by linarith [h'.2]) (by linarith [h'.1])
    have e' : -(cubic x - 1 / 2) = -x * (15 / 100 - 15 / 10000 * (-x) ^ 2) := by rw [e x]; ring
    rw [← e'] at this
    refine ⟨this.trans_le (neg_le_abs _), ⟨fun hp => by linarith, fun hk' => ?_⟩⟩
    have : k / 10 ^ 34 = 0 := by rw [le_antisymm hk hk', zero_div]
    linarith

theorem fdBlk_split {l : List ℕ} {a b c : ℕ} (h : fdBlk l a b c = true) :
    l.all (fdFar (lrB 4) 1130000000000000000000000000000) = true ∧
    l.all (fdFar (mbB 4) 171000000000000000000000000000) = true ∧
    fdCount (lrB 4) l = a ∧ fdCount (mbB 4) l = b ∧ fdZeros l = c := by
  rw [fdBlk, Bool.and_eq_true, Bool.and_eq_true, Bool.and_eq_true, Bool.and_eq_true] at h
  obtain ⟨⟨⟨⟨h1, h2⟩, h3⟩, h4⟩, h5⟩ := h
  exact ⟨h1, h2, Nat.eq_of_beq_eq_true h3, Nat.eq_of_beq_eq_true h4, Nat.eq_of_beq_eq_true h5⟩

theorem fdBlk_append {l l' : List ℕ} {a b c a' b' c' : ℕ} (h : fdBlk l a b c = true) (h' : fdBlk l' a' b' c' = true) :
    fdBlk (l ++ l') (a + a') (b + b') (c + c') = true := by
  obtain ⟨h1, h2, h3, h4, h5⟩ := fdBlk_split h
  obtain ⟨g1, g2, g3, g4, g5⟩ := fdBlk_split h'
  have count : ∀ B, fdCount B (l ++ l') = fdCount B l + fdCount B l' := fun B => by
    simp only [fdCount, foldr_add_nat, List.map_append, List.sum_append]
  have zeros : fdZeros (l ++ l') = fdZeros l + fdZeros l' := by
    simp only [fdZeros, foldr_add_nat, List.map_append, List.sum_append]
  rw [fdBlk, count, count, zeros, List.all_append, List.all_append, h1, h2, h3, h4, h5, g1, g2, g3, g4, g5]
  simp

theorem fd_blocks : fdBlk dataCsv 5112 5115 9661 = true := by
  have h := fdBlk_append fdBlk0 (fdBlk_append fdBlk1 (fdBlk_append fdBlk2 (fdBlk_append fdBlk3 (fdBlk_append fdBlk4
    (fdBlk_append fdBlk5 (fdBlk_append fdBlk6 (fdBlk_append fdBlk7 (fdBlk_append fdBlk8 fdBlk9))))))))
  rw [← dataCsv] at h
  generalize dataCsv = l at *
  norm_num only at h
  exact h

theorem beq_label (r : ℕ) : Nat.beq (Nat.mod r 10) 0 = decide (dataLabel r = 0) := by
  rw [Bool.eq_iff_iff, decide_eq_true_eq]
  exact Nat.beq_eq ▸ Iff.rfl

theorem sum_data_all {M : Type*} [AddCommMonoid M] (f : ℕ → M) :
    ∑ d ∈ range 10000, f (dataRec d) = (dataCsv.map f).sum := by
  have h := sum_data f (a := 0) (n := 10000) (by norm_num)
  rwa [List.drop_zero, List.take_of_length_le (by rw [dataCsv_length]), zero_add, Nat.Ico_zero_eq_range] at h

theorem data_count {p : ℕ → ℝ} {B : List ℤ} (h : ∀ i < 10000, (1 / 2 ≤ p i ↔ 0 ≤ fdDot B (dataRec i))) :
    ∑ i ∈ range 10000, verdict (p i) (dataLabel (dataRec i) = 0) = fdCount B dataCsv := by
  rw [fdCount, foldr_add_nat, ← sum_data_all]
  refine sum_congr rfl fun i hi => ?_
  unfold verdict
  simp only [h i (mem_range.mp hi), beq_label]
  by_cases h1 : 0 ≤ fdDot B (dataRec i) <;> by_cases h2 : dataLabel (dataRec i) = 0 <;> simp [h1, h2]

theorem lr_all {z : ℕ → ℕ → ℝ} (hz : NearData z) {i : ℕ} (hi : i < 10000) :
    1 / 10 ^ 5 < |lrPredict z i - 1 / 2| ∧ (1 / 2 ≤ lrPredict z i ↔ 0 ≤ fdDot (lrB 4) (dataRec i)) := by
  have h := far_real (all_data (fdBlk_split fd_blocks).1 hi) (by norm_num)
    (data_dot hz (fun j hj => lrTables.leB le_rfl hj) (fun j hj => (lrRun_near hz le_rfl hj).1) hi)
  refine ⟨lt_of_le_of_lt ?_ h.1, h.2⟩
  norm_num

theorem mb_all {z : ℕ → ℕ → ℝ} (hz : NearData z) {i : ℕ} (hi : i < 10000) :
    1 / 10 ^ 6 < |mbPredict z i - 1 / 2| ∧ (1 / 2 ≤ mbPredict z i ↔ 0 ≤ fdDot (mbB 4) (dataRec i)) := by
  have h := far_real (all_data (fdBlk_split fd_blocks).2.1 hi) (by norm_num)
    (data_dot hz (fun j hj => mbTables.leB le_rfl hj) (fun j hj => (mbRun_near hz le_rfl hj).1) hi)
  refine ⟨lt_of_le_of_lt ?_ h.1, h.2⟩
  norm_num

set_option maxRecDepth 20000 in
theorem lr_test : fdDot (lrB 4) (dataRec 1935) = 3714366592087300423734321935997000 ∧
    dataLabel (dataRec 1935) = 0 := by decide +kernel

set_option maxRecDepth 20000 in
theorem mb_test : fdDot (mbB 4) (dataRec 1950) = 8654310632661988456397146004001000 ∧
    dataLabel (dataRec 1950) = 0 := by decide +kernel

theorem lr_pred {z : ℕ → ℕ → ℝ} (hz : NearData z) : |lrPredict z 1935 - 0.5556386| ≤ 2 / 10 ^ 6 := by
  have h := data_dot hz (fun j hj => lrTables.leB le_rfl hj) (fun j hj => (lrRun_near hz le_rfl hj).1)
    (i := 1935) (by norm_num)
  rw [lr_test.1] at h
  unfold lrPredict
  generalize (∑ j ∈ range 7, z 1935 j * (lrRun z 4).1 j) = x at *
  have h' := abs_le.mp h
  norm_num at h'
  have h1 : |x - 0.3714366| ≤ 1 / 10 ^ 5 := by
    rw [abs_le]; norm_num; constructor <;> linarith [h'.1, h'.2]
  have h2 := cubic_near (x := x) (y := 0.3714366)
    (by rw [abs_le] at *; norm_num at h1 ⊢; constructor <;> linarith [h1.1, h1.2]) (by norm_num [abs_le])
  have h3 := abs_le.mp (h2.trans (mul_le_mul_of_nonneg_left h1 (by norm_num)))
  have h4 : cubic 0.3714366 = -15 / 10000 * 0.3714366 ^ 3 + 15 / 100 * 0.3714366 + 1 / 2 := rfl
  rw [abs_le]
  norm_num at h3 h4 ⊢
  constructor <;> linarith [h3.1, h3.2]

theorem mb_pred {z : ℕ → ℕ → ℝ} (hz : NearData z) : |mbPredict z 1950 - 0.6288424| ≤ 2 / 10 ^ 6 := by
  have h := data_dot hz (fun j hj => mbTables.leB le_rfl hj) (fun j hj => (mbRun_near hz le_rfl hj).1)
    (i := 1950) (by norm_num)
  rw [mb_test.1] at h
  unfold mbPredict
  generalize (∑ j ∈ range 7, z 1950 j * (mbRun z 4).1 j) = x at *
  have h' := abs_le.mp h
  norm_num at h'
  have h1 : |x - 0.8654311| ≤ 1 / 10 ^ 5 := by
    rw [abs_le]; norm_num; constructor <;> linarith [h'.1, h'.2]
  have h2 := cubic_near (x := x) (y := 0.8654311)
    (by rw [abs_le] at *; norm_num at h1 ⊢; constructor <;> linarith [h1.1, h1.2]) (by norm_num [abs_le])
  have h3 := abs_le.mp (h2.trans (mul_le_mul_of_nonneg_left h1 (by norm_num)))
  have h4 : cubic 0.8654311 = -15 / 10000 * 0.8654311 ^ 3 + 15 / 100 * 0.8654311 + 1 / 2 := rfl
  rw [abs_le]
  norm_num at h3 h4 ⊢
  constructor <;> linarith [h3.1, h3.2]

/-- **C79 (the plain models).** On lr/data.csv, in exact arithmetic: the model of lr.go predicts 0.55564 for its
one test record and that of lr_minibatch.go 0.62884, both right (they are of class 0); over the whole file the
models are right for 5112 and 5115 of the 10000 records, while 9661 are of class 0. -/
theorem C79_plain : |lrPredict dataReal 1935 - 0.5556386| ≤ 2 / 10 ^ 6 ∧
    |mbPredict dataReal 1950 - 0.6288424| ≤ 2 / 10 ^ 6 ∧
    dataLabel (dataRec 1935) = 0 ∧ dataLabel (dataRec 1950) = 0 ∧
    ∑ i ∈ range 10000, verdict (lrPredict dataReal i) (dataLabel (dataRec i) = 0) = 5112 ∧
    ∑ i ∈ range 10000, verdict (mbPredict dataReal i) (dataLabel (dataRec i) = 0) = 5115 ∧
    ((range 10000).filter fun i => dataLabel (dataRec i) = 0).card = 9661 := by
  obtain ⟨-, -, h3, h4, h5⟩ := fdBlk_split fd_blocks
  refine ⟨lr_pred nearData_self, mb_pred nearData_self, lr_test.2, mb_test.2, ?_, ?_, ?_⟩
  · rw [data_count fun i hi => (lr_all nearData_self hi).2, h3]
  · rw [data_count fun i hi => (mb_all nearData_self hi).2, h4]
  · rw [card_filter, ← h5, fdZeros, foldr_add_nat, ← sum_data_all]
    refine sum_congr rfl fun i _ => ?_
    simp only [beq_label]
    by_cases h2 : dataLabel (dataRec i) = 0 <;> simp [h2]

/-! ## From the complex run to the real one -/

theorem gradOn_ofReal {p : Hyper ℝ} {p' : Hyper ℂ} (h3 : p'.c3 = (p.c3 : ℂ)) (h1 : p'.c1 = (p.c1 : ℂ))
    (h0 : p'.c0 = (p.c0 : ℂ)) {S : Finset ℕ} {Z : ℕ → ℕ → ℝ} {Z' : ℕ → ℕ → ℂ} (hZ : ∀ d k, Z' d k = (Z d k : ℂ))
    {y : ℕ → ℝ} {y' : ℕ → ℂ} (hy : ∀ d ∈ S, y' d = (y d : ℂ)) (w : ℕ) (v : ℕ → ℝ) (c : ℕ) :
    gradOn p' w S Z' y' (fun k => (v k : ℂ)) c = ((gradOn p w S Z y v c : ℝ) : ℂ) := by
  rw [gradOn, gradOn]
  push_cast
  refine sum_congr rfl fun d hd => ?_
  rw [hZ, hy d hd, sum_congr rfl fun k _ => by rw [hZ], sigma3, sigma3, h3, h1, h0]
  push_cast
  rfl

theorem nesterovRun_ofReal {p : Hyper ℝ} {p' : Hyper ℂ} (hγ : p'.gamma = (p.gamma : ℂ))
    (hη : ∀ a, p'.eta a = (p.eta a : ℂ)) (hb : p'.batchSize = p.batchSize) {G : ℕ → (ℕ → ℝ) → ℕ → ℝ}
    {G' : ℕ → (ℕ → ℂ) → ℕ → ℂ} (t : ℕ)
    (hG : ∀ a < t, ∀ v c, G' a (fun k => ((v k : ℝ) : ℂ)) c = (G a v c : ℂ)) :
    nesterovRun p' G' t (fun _ => 0, fun _ => 0) =
      (fun c => ((nesterovRun p G t (fun _ => 0, fun _ => 0)).1 c : ℂ),
       fun c => ((nesterovRun p G t (fun _ => 0, fun _ => 0)).2 c : ℂ)) := by
  induction t with
  | zero => simp [nesterovRun]
  | succ t ih =>
    rw [nesterovRun, ih fun a ha => hG a (by omega)]
    simp only [nesterovRun, nesterov, hγ, hη, hb, hG t (by omega)]
    push_cast
    rfl

theorem dataHyper_eta (a : ℕ) : lrHyper.eta a = ((dataHyper 2048).eta a : ℂ) := by
  show lrHyper.eta a = (((dataEta a : ℚ) : ℝ) : ℂ)
  rw [Complex.ofReal_ratCast]
  match a with
  | 0 => rfl
  | 1 => rfl
  | 2 => rfl
  | 3 => rfl
  | _ + 4 => rfl

variable {F : Fl} {feature : List (List ℂ)} {label : List ℂ}

theorem DataTable.target (h : DataTable F feature label) (hF : F.Ok) {i : ℕ} (hi : i < 10000) :
    target (· = 0) (label.getD i 0) = (dataTarget i : ℂ) := by
  rw [h.label_eq hF hi, Lr.target, Complex.natCast_re, dataTarget]
  simp only [Nat.cast_eq_zero]
  split <;> simp

/-- The entries as reals. -/
def reals (feature : List (List ℂ)) (i j : ℕ) : ℝ := (entry feature i j).re

theorem DataTable.nearData (h : DataTable F feature label) (hF : F.Ok) : NearData (reals feature) :=
  fun _ hi _ hj => h.near hF hi hj

theorem DataTable.lrRun (h : DataTable F feature label) (hF : F.Ok) (t : ℕ) :
    plainTrain lrCfg feature label t =
      (fun c => ((Lr.lrRun (reals feature) t).1 c : ℂ), fun c => ((Lr.lrRun (reals feature) t).2 c : ℂ)) := by
  refine nesterovRun_ofReal (p := dataHyper 2048) (p' := lrHyper) ?_ dataHyper_eta (by rfl) t fun a _ v c => ?_
  · show ((3 / 10 : ℚ) : ℂ) = ((3 / 10 : ℝ) : ℂ); push_cast; rfl
  · refine gradOn_ofReal (p := dataHyper 2048) ?_ ?_ ?_ h.re (fun d hd => h.target hF ?_) 7 v c
    · show ((-15 / 10000 : ℚ) : ℂ) = ((-15 / 10000 : ℝ) : ℂ); push_cast; rfl
    · show ((15 / 100 : ℚ) : ℂ) = ((15 / 100 : ℝ) : ℂ); push_cast; rfl
    · show ((1 / 2 : ℚ) : ℂ) = ((1 / 2 : ℝ) : ℂ); push_cast; rfl
    · exact (mem_range.mp hd).trans (by show 2048 < 10000; norm_num)

theorem DataTable.mbRun (h : DataTable F feature label) (hF : F.Ok) {t : ℕ} (ht : t ≤ 4) :
    nesterovRun mbHyper (fun a => gradOn mbHyper 7 (Ico (512 * a) (512 * a + 512)) (entry feature)
      fun d => Lr.target (· = 0) (label.getD d 0)) t (fun _ => 0, fun _ => 0) =
      (fun c => ((Lr.mbRun (reals feature) t).1 c : ℂ), fun c => ((Lr.mbRun (reals feature) t).2 c : ℂ)) := by
  refine nesterovRun_ofReal (p := dataHyper 512) (p' := mbHyper) ?_ dataHyper_eta (by rfl) t fun a ha v c => ?_
  · show ((3 / 10 : ℚ) : ℂ) = ((3 / 10 : ℝ) : ℂ); push_cast; rfl
  · refine gradOn_ofReal (p := dataHyper 512) ?_ ?_ ?_ h.re (fun d hd => h.target hF ?_) 7 v c
    · show ((-15 / 10000 : ℚ) : ℂ) = ((-15 / 10000 : ℝ) : ℂ); push_cast; rfl
    · show ((15 / 100 : ℚ) : ℂ) = ((15 / 100 : ℝ) : ℂ); push_cast; rfl
    · show ((1 / 2 : ℚ) : ℂ) = ((1 / 2 : ℝ) : ℂ); push_cast; rfl
    · rw [mem_Ico] at hd; omega

theorem sigma3_lr (x : ℝ) : sigma3 lrHyper (x : ℂ) = (cubic x : ℂ) := by
  rw [← cubic_ofReal, sigma3]
  show ((-15 / 10000 : ℚ) : ℂ) * _ + ((15 / 100 : ℚ) : ℂ) * _ + ((1 / 2 : ℚ) : ℂ) = _
  push_cast
  rfl

theorem DataTable.lrPredict (h : DataTable F feature label) (hF : F.Ok) :
    plainPredict lrCfg feature label = (Lr.lrPredict (reals feature) 1935 : ℂ) := by
  rw [plainPredict, h.lrRun hF, Lr.lrPredict, ← sigma3_lr]
  push_cast
  refine congrArg _ (sum_congr rfl fun j _ => ?_)
  rw [h.re, reals]
  rfl

theorem DataTable.mbPredict (h : DataTable F feature label) (hF : F.Ok) :
    plainMbPredict mbCfg feature label = (Lr.mbPredict (reals feature) 1950 : ℂ) := by
  have e : plainMbTrain mbCfg feature label 4 =
      nesterovRun mbHyper (fun a => gradOn mbHyper 7 (Ico (512 * a) (512 * a + 512))
        (entry feature) fun d => Lr.target (· = 0) (label.getD d 0)) 4 (fun _ => 0, fun _ => 0) := by
    unfold plainMbTrain
    refine nesterovRun_congr (fun a ha => ?_) _
    have : a % mbCfg.shape.numBatch = a := Nat.mod_eq_of_lt (by rw [mbCfg_numBatch]; omega)
    rw [this, mbCfg_perBatch, min_eq_left (by show 512 * (a + 1) ≤ 2048; omega)]
    rfl
  rw [plainMbPredict, show mbCfg.numIter = 4 from rfl, e, h.mbRun hF le_rfl, Lr.mbPredict, ← sigma3_lr]
  push_cast
  refine congrArg _ (sum_congr rfl fun j _ => ?_)
  rw [h.re, reals]
  rfl

/-- A decrypted slot near a prediction for a record of class 0. -/
theorem verdict_or {r p c m : ℝ} (hp : |p - c| ≤ 2 / 10 ^ 6) (hc : 1 / 2 + m + 2 / 10 ^ 6 < c) {P : Prop} (hP : P) :
    verdict r P = 1 ∨ m < |r - p| := by
  rcases lt_or_ge r (1 / 2) with h | h
  · right
    have := (abs_le.mp hp).1
    rw [abs_sub_comm]
    refine lt_of_lt_of_le ?_ (le_abs_self _)
    linarith
  · left
    rw [verdict, if_pos ⟨fun _ => hP, fun _ => h⟩]

/-- **C79 (lr.go).** Whatever the keys, samples, iteration orders, roundings and encoder are: lr.go on its file
does not panic; the numbers printed in iteration `t` are decoded from polynomials that hold (up to the computed errors)
`beta` and `v` of the plain training, which are within `10^-7` of the tables `lrB` and `lrV`; and its one
prediction counts as correct unless the noise in the decrypted slot exceeds 0.055. -/
theorem C79_lr {parse : String → Option ℂ} {E : Encoder pnCtx (List ℂ)} {prm0 : CPar pnCtx}
    {rnd : MainRand pnCtx} {ε δ : ℝ} (hp : ParsesLong prm0.fl parse) (h : PnOk E prm0 rnd 3 100 ε δ) :
    ∃ out, lrProgram parse E prm0 15 lrCfg rnd dataRows = .ok out ∧ out.prints.length = 4 ∧
      ∃ (z : ℕ → ℕ → ℝ) (data : List (List ℂ)) (label : List ℂ),
        (∀ i < 10000, ∀ j < 7, entry data i j = z i j ∧ |z i j - dataVal i j| ≤ 1 / 10 ^ 15) ∧
        (∀ i < 10000, label.getD i 0 = (dataLabel (dataRec i) : ℂ)) ∧
        (∀ t < 4, ∃ (vb vv : AVal lrCfg.slotNum) (bd vd : List ℂ),
          Replicated 8 vb.x (fun c => if c < 7 then ((lrRun z (t + 1)).1 c : ℂ) else 0) ∧
          Replicated 8 vv.x (fun c => if c < 7 then ((lrRun z (t + 1)).2 c : ℂ) else 0) ∧
          (∀ c < 7, |(lrRun z (t + 1)).1 c - (lrB (t + 1)).getD c 0 / 10 ^ 15| ≤ 1 / 10 ^ 7 ∧
            |(lrRun z (t + 1)).2 c - (lrV (t + 1)).getD c 0 / 10 ^ 15| ≤ 1 / 10 ^ 7) ∧
          mainTrainVal (mainPar prm0 15 rnd) lrCfg data label (2 * 0x80000000080001) 19
            (freshErr pnCtx (2 ^ 38) 19 ε) (t + 1) = some (vb, vv) ∧
          Reads E vb bd ∧ Reads E vv vd ∧ out.prints[t]? = some (bd.take 2, vd.take 2)) ∧
        ∃ (vr : AVal lrCfg.slotNum) (p : ℝ),
          mainInferVal (mainPar prm0 15 rnd) lrCfg data label (2 * 0x80000000080001) 19
            (freshErr pnCtx (2 ^ 38) 19 ε) = some vr ∧ vr.lvl = 1 ∧ vr.x 0 = p ∧ Reads E vr out.result ∧
          |p - 0.5556386| ≤ 2 / 10 ^ 6 ∧ (out.correct = 1 ∨ 0.0556 < |(out.result.getD 0 0).re - p|) := by
  obtain ⟨t, e1, ht⟩ := readData_dataRows hp
  have hF := h.fl
  have hok : LrOk E prm0 rnd t.feature t.label 100 ε δ :=
    { h with
      hundred := le_rfl
      dataLen := ht.len.ge
      labelLen := ht.labelLen.ge
      rowLen := fun i hi => (ht.rows i hi).ge
      dataLe := ht.le hF }
  obtain ⟨out, o1, o2, o3, vr, o4, o5, o6, o7, o8⟩ := C51_shipped hok
  have hz := ht.nearData hF
  refine ⟨out, ?_, o2, reals t.feature, t.feature, t.label, fun i hi j hj => ⟨ht.re i j, hz i hi j hj⟩,
    fun i hi => ht.label_eq hF hi, fun k hk => ?_, vr, Lr.lrPredict (reals t.feature) 1935, o4, o5, ?_, o7,
    lr_pred hz, ?_⟩
  · show (readData parse 10000 7 dataRows >>= fun t => _) = _
    rw [e1, Go.ok_bind]
    exact o1
  · obtain ⟨vb, vv, bd, vd, -, -, g1, g2, g3, g4, g5, g6⟩ := o3 k hk
    rw [ht.lrRun hF] at g1 g2
    exact ⟨vb, vv, bd, vd, g1, g2, fun c hc => lrRun_near hz (by omega) hc, g3, g4, g5, g6⟩
  · rw [o6, ht.lrPredict hF]
  · rw [o8, ht.label_eq hF (by norm_num), Complex.natCast_re]
    simp only [Nat.cast_eq_zero]
    exact verdict_or (lr_pred hz) (by norm_num) lr_test.2

/-- **C79 (lr_minibatch.go).** The same for lr_minibatch.go, whose prediction counts as correct unless the noise
exceeds 0.128. -/
theorem C79_mb {parse : String → Option ℂ} {E : Encoder pnCtx (List ℂ)} {prm0 : CPar pnCtx}
    {rnd : MainRand pnCtx} {ε δ : ℝ} (hp : ParsesLong prm0.fl parse) (h : PnOk E prm0 rnd 4 100 ε δ) :
    ∃ out, mbProgram parse E prm0 15 mbCfg rnd dataRows = .ok out ∧ out.prints.length = 4 ∧
      ∃ (z : ℕ → ℕ → ℝ) (data : List (List ℂ)) (label : List ℂ),
        (∀ i < 10000, ∀ j < 7, entry data i j = z i j ∧ |z i j - dataVal i j| ≤ 1 / 10 ^ 15) ∧
        (∀ i < 10000, label.getD i 0 = (dataLabel (dataRec i) : ℂ)) ∧
        (∀ t < 4, ∃ (vb vv : AVal mbCfg.numSlots) (bd vd : List ℂ),
          Replicated 8 vb.x (fun c => if c < 7 then ((mbRun z (t + 1)).1 c : ℂ) else 0) ∧
          Replicated 8 vv.x (fun c => if c < 7 then ((mbRun z (t + 1)).2 c : ℂ) else 0) ∧
          (∀ c < 7, |(mbRun z (t + 1)).1 c - (mbB (t + 1)).getD c 0 / 10 ^ 15| ≤ 1 / 10 ^ 7 ∧
            |(mbRun z (t + 1)).2 c - (mbV (t + 1)).getD c 0 / 10 ^ 15| ≤ 1 / 10 ^ 7) ∧
          mbMainVal (mainPar prm0 15 rnd) mbCfg data label (2 * 0x80000000080001) 19
            (freshErr pnCtx (2 ^ 38) 19 ε) (t + 1) = some (vb, vv) ∧
          Reads E vb bd ∧ Reads E vv vd ∧ out.prints[t]? = some (bd.take 2, vd.take 2)) ∧
        ∃ (vr : AVal mbCfg.numSlots) (p : ℝ),
          mbInferVal (mainPar prm0 15 rnd) mbCfg data label (2 * 0x80000000080001) 19
            (freshErr pnCtx (2 ^ 38) 19 ε) = some vr ∧ vr.lvl = 1 ∧ vr.x 0 = p ∧ Reads E vr out.result ∧
          |p - 0.6288424| ≤ 2 / 10 ^ 6 ∧ (out.correct = 1 ∨ 0.1288 < |(out.result.getD 0 0).re - p|) := by
  obtain ⟨t, e1, ht⟩ := readData_dataRows hp
  have hF := h.fl
  have hok : MbLrOk E prm0 rnd t.feature t.label 100 ε δ :=
    { h with
      hundred := le_rfl
      dataLen := ht.len.ge
      labelLen := ht.labelLen.ge
      rowLen := fun i hi => (ht.rows i hi).ge
      dataLe := ht.le hF }
  obtain ⟨out, o1, o2, o3, vr, o4, o5, o6, o7, o8⟩ := C52_shipped hok
  have hz := ht.nearData hF
  refine ⟨out, ?_, o2, reals t.feature, t.feature, t.label, fun i hi j hj => ⟨ht.re i j, hz i hi j hj⟩,
    fun i hi => ht.label_eq hF hi, fun k hk => ?_, vr, Lr.mbPredict (reals t.feature) 1950, o4, o5, ?_, o7,
    mb_pred hz, ?_⟩
  · show (readData parse 10000 7 dataRows >>= fun t => _) = _
    rw [e1, Go.ok_bind]
    exact o1
  · obtain ⟨vb, vv, bd, vd, -, -, g, g3, g4, g5, g6⟩ := o3 k hk
    rw [ht.mbRun hF (by omega)] at g
    exact ⟨vb, vv, bd, vd, g.1, g.2, fun c hc => mbRun_near hz (by omega) hc, g3, g4, g5, g6⟩
  · rw [o6, ht.mbPredict hF]
  · rw [o8, ht.label_eq hF (by norm_num), Complex.natCast_re]
    simp only [Nat.cast_eq_zero]
    exact verdict_or (mb_pred hz) (by norm_num) mb_test.2

end MK.Lr
