import Verif.Props.LrPack
import Mathlib.Data.Rat.Defs
import Mathlib.Algebra.Order.Ring.Rat
import Mathlib.Tactic.NormNum
import Mathlib.Tactic.FinCases
import Mathlib.Tactic.IntervalCases

/-!
# Concrete instances for the logistic-regression theorems
-/

namespace MK.Lr

open Finset

/-- The shape of lr_minibatch.go: `2^14` slots, 7 features, 2048 records, batches of 512. -/
def shapeMb : Shape := ⟨2 ^ 14, 7, 2048, 512⟩

/-- The shape of lr_minibatch_toy.go. -/
def shapeToy : Shape := ⟨2 ^ 14, 20, 512, 128⟩

theorem clog_seven : Nat.clog 2 7 = 3 :=
  le_antisymm (Nat.clog_le_of_le_pow (by norm_num)) ((Nat.lt_clog_iff_pow_lt (by norm_num)).mpr (by norm_num))

theorem clog_twenty : Nat.clog 2 20 = 5 :=
  le_antisymm (Nat.clog_le_of_le_pow (by norm_num)) ((Nat.lt_clog_iff_pow_lt (by norm_num)).mpr (by norm_num))

theorem shapeMb_cols : shapeMb.slotsPerData = 8 := by
  show 2 ^ Nat.clog 2 7 = 8
  rw [clog_seven]; norm_num

theorem shapeMb_rows : shapeMb.numDataPerCt = 2048 := by
  unfold Shape.numDataPerCt; rw [shapeMb_cols]; norm_num [shapeMb]

theorem shapeToy_cols : shapeToy.slotsPerData = 32 := by
  show 2 ^ Nat.clog 2 20 = 32
  rw [clog_twenty]; norm_num

theorem shapeToy_rows : shapeToy.numDataPerCt = 512 := by
  unfold Shape.numDataPerCt; rw [shapeToy_cols]; norm_num [shapeToy]

/-- In lr_minibatch.go the width `2^3` of the mask is the number of slots per record exactly for 5
to 8 features. -/
theorem C40_mask_width (s : Shape) : s.slotsPerData = 2 ^ 3 ↔ 5 ≤ s.numFeature ∧ s.numFeature ≤ 8 := by
  unfold Shape.slotsPerData
  rw [Nat.pow_right_injective (le_refl 2) |>.eq_iff]
  constructor
  · intro h
    constructor
    · have : 2 < Nat.clog 2 s.numFeature := by omega
      exact (Nat.lt_clog_iff_pow_lt (by norm_num)).mp this
    · have := Nat.le_pow_clog (b := 2) (by norm_num) s.numFeature
      rwa [h] at this
  · rintro ⟨h1, h2⟩
    refine le_antisymm (Nat.clog_le_of_le_pow (by omega)) ?_
    exact (Nat.lt_clog_iff_pow_lt (by norm_num)).mpr (by omega)

/-- lr_minibatch.go as shipped: batches have exactly 512 records and cover the training set. -/
example : shapeMb.perBatch = 512 ∧ shapeMb.perBatch * shapeMb.numBatch = 2048 := by
  have h := (C40_perBatch shapeMb (by norm_num [shapeMb]) (by rw [shapeMb_rows]; norm_num)
    (Or.inl (by rw [shapeMb_rows]; norm_num [shapeMb]))).1
  rw [h]
  norm_num [shapeMb, Shape.numBatch]

/-- Record 1500 stands in batch 2, ciphertext 0, row 476. -/
example : ∃! t : ℕ × ℕ × ℕ, t.1 < shapeMb.numBatch ∧ t.2.1 < shapeMb.numCtPerBatch ∧
    t.2.2 < shapeMb.realnumDataPerCt ∧ shapeMb.dataId t.1 t.2.1 t.2.2 = 1500 := by
  refine C40_unique_place shapeMb ?_
  rw [(C40_perBatch shapeMb (by norm_num [shapeMb]) (by rw [shapeMb_rows]; norm_num)
    (Or.inl (by rw [shapeMb_rows]; norm_num [shapeMb]))).1]
  norm_num [shapeMb, Shape.numBatch]

/-- A batch size of 3000 with 2048 rows per ciphertext: 4096 records per batch. -/
example : (3000 : ℕ) < (Shape.mk (2 ^ 14) 7 6000 3000).perBatch := by
  have hc : (Shape.mk (2 ^ 14) 7 6000 3000).numDataPerCt = 2048 := by
    unfold Shape.numDataPerCt
    have : (Shape.mk (2 ^ 14) 7 6000 3000).slotsPerData = 8 := shapeMb_cols
    rw [this]; norm_num
  exact C40_overfull _ (by rw [hc]; norm_num) (by rw [hc]; norm_num) (by rw [hc]; norm_num)

/-- A small instance: 8 slots in 2 rows of 4 columns. -/
example (x : Slots 8 ℚ) (i : ZMod 8) :
    (SumRowVec (slotsHE 8 ℚ) x 2 4 : Id (Slots 8 ℚ)) i =
      ∑ r ∈ range 2, x ((4 * r + i.val % 4 : ℕ) : ZMod 8) :=
  C38_SumRowVec (a := 1) (by norm_num) (by norm_num) x i

example (x : Slots 8 ℚ) (i : ZMod 8) :
    (SumColVec (slotsHE 8 ℚ) x (toSlots 8 (maskVec 8 4)) 4 : Id (Slots 8 ℚ)) i =
      ∑ k ∈ range 4, x ((4 * (i.val / 4) + k : ℕ) : ZMod 8) :=
  C38_SumColVec (rows := 2) (b := 2) (by norm_num) (by norm_num) x i

/-- With a mask of twice the width, row 1 gets nothing: here every row sum is 4, but slot 4 of
the result is 0. -/
theorem mask_too_wide :
    (SumColVec (slotsHE 8 ℚ) (fun _ => 1) (toSlots 8 (maskVec 8 8)) 4 : Id (Slots 8 ℚ)) 4 = 0 := by
  have e1 := forDouble_rot (n := 8) (K := ℚ) 4 (fun i => (i : ℤ)) 1 (fun i => by ring) (fun _ => 1)
  have e2 := forDouble_rot (n := 8) (K := ℚ) 4 (fun i => -(i : ℤ)) (-1) (fun i => by ring)
    ((fun _ => 4) * toSlots 8 (maskVec 8 8))
  have hcl : Nat.clog 2 4 = 2 := by
    rw [show 4 = 2 ^ 2 by norm_num, Nat.clog_pow _ _ (by norm_num)]
  rw [hcl] at e1 e2
  have e3 : (fun _ => ∑ r ∈ range (2 ^ 2), 1 : Slots 8 ℚ) = fun _ => 4 := by funext; norm_num
  have e0 : (SumColVec (slotsHE 8 ℚ) (fun _ => 1) (toSlots 8 (maskVec 8 8)) 4 : Id (Slots 8 ℚ)) =
    forDouble 4 1 (fun i ct => do
      let r ← (slotsHE 8 ℚ).rotate ct (-(i : ℤ))
      (slotsHE 8 ℚ).add ct r)
      ((slotsHE 8 ℚ).mulPtxt (forDouble 4 1 (fun i ct => do
        let r ← (slotsHE 8 ℚ).rotate ct (i : ℤ)
        (slotsHE 8 ℚ).add ct r) (fun _ => 1) : Id (Slots 8 ℚ)) (toSlots 8 (maskVec 8 8))) := rfl
  rw [e0, e1, e3]
  refine (congrFun e2 4).trans ?_
  rw [show (2 : ℕ) ^ 2 = 4 by norm_num]
  simp only [sum_range_succ, sum_range_zero, Pi.mul_apply]
  have hm : ∀ j : ZMod 8, j ≠ 0 → toSlots 8 (maskVec 8 8) j = (0 : ℚ) := by decide
  rw [hm _ (by decide), hm _ (by decide), hm _ (by decide), hm _ (by decide)]
  norm_num

/-- Hyperparameters in the style of lr.go. -/
def hyperEx : Hyper ℚ where
  gamma := 3 / 10
  eta a := if a = 0 then 1 else 161803 / 100000
  c3 := -4 / 1000
  c1 := 197 / 1000
  c0 := 1 / 2
  batchSize := 2

/-- Two records with three features, in 8 slots. -/
def dataEx : List (List ℚ) := [[1, 2, 3], [4, 5, 6], [7, 8, 9]]

/-- lr.go on this data for every number of iterations: the hypotheses hold. -/
example (T : ℕ) :
    ∃ z label, packZ 8 4 3 2 dataEx = .ok z ∧ packLabel 8 4 2 [1, 0, 1] = .ok label ∧
      ∃ beta v : Slots 8 ℚ,
        (lrTrain (slotsHE 8 ℚ) (constSlots 8 4 hyperEx) 2 4 (dataSlots 8 hyperEx z label) T 0 0 :
          Id _) = (beta, v) ∧
        let st := nesterovRun hyperEx
          (fun _ => grad hyperEx 3 2 (entry dataEx) (fun r => [1, 0, 1].getD r 0)) T
          (fun _ => 0, fun _ => 0)
        Replicated 4 beta (fun c => if c < 3 then st.1 c else 0) ∧
        Replicated 4 v (fun c => if c < 3 then st.2 c else 0) :=
  C39_lr (a := 1) (b := 2) (by norm_num) (by norm_num) (by norm_num) hyperEx
    (by norm_num [hyperEx]) (by norm_num) (by norm_num) (by simp [dataEx])
    (fun r hr => by interval_cases r <;> simp [dataEx]) (by simp) T

/-- The first iterate is not trivial: weight 0 becomes `-0.225`. -/
example : (nesterovRun hyperEx
    (fun _ => grad hyperEx 3 2 (entry dataEx) (fun r => [1, 0, 1].getD r 0)) 1
    (fun _ => 0, fun _ => 0)).1 0 = -9 / 40 := by
  norm_num [nesterovRun, nesterov, grad, sum_range_succ, sigma3, entry, dataEx, hyperEx]

/-- Inference with three features in 8 slots. -/
example (beta : Slots 8 ℚ) (bb : ℕ → ℚ) (hb : Replicated 4 beta bb) :
    ∃ test, packTest 8 3 [1, 2, 3] = .ok test ∧
      (infer (slotsHE 8 ℚ) (constSlots 8 4 hyperEx) 3 (toSlots 8 test) beta : Id (Slots 8 ℚ)) 0 =
        sigma3 hyperEx (∑ j ∈ range 3, [1, 2, 3].getD j 0 * bb j) :=
  C41_infer (e := 3) (by norm_num) hyperEx (by norm_num [hyperEx]) (by norm_num) (by simp) hb
    (by norm_num)

/-- lr_minibatch.go as shipped, for any table of 2048 records with 7 features. -/
example (p : Hyper ℚ) (h3 : p.c3 ≠ 0) (data : List (List ℚ)) (labels : List ℚ)
    (hd : 2048 ≤ data.length) (hrow : ∀ r < 2048, 7 ≤ (data.getD r []).length)
    (hl : 2048 ≤ labels.length) (T : ℕ) :
    ∃ z label : ℕ → ℕ → List ℚ, (∀ b i, packBatchZ shapeMb data b i = .ok (z b i)) ∧
      (∀ b i, packBatchLabel shapeMb labels b i = .ok (label b i)) ∧
      ∃ beta v : Slots (2 ^ 14) ℚ,
        (mbTrain (slotsHE (2 ^ 14) ℚ) (constSlots (2 ^ 14) (2 ^ 3) p) shapeMb.numDataPerCt
          shapeMb.slotsPerData shapeMb.numBatch shapeMb.numCtPerBatch
          (fun b i => dataSlots (2 ^ 14) p (z b i) (label b i)) (fun _ => (0, 0)) T 0 0 :
          Id _) = (beta, v) ∧
        let st := nesterovRun p (fun a => gradOn p 7
          (Ico (shapeMb.perBatch * (a % shapeMb.numBatch))
            (min (shapeMb.perBatch * (a % shapeMb.numBatch + 1)) 2048)) (entry data)
          (fun d => labels.getD d 0)) T (fun _ => 0, fun _ => 0)
        Replicated shapeMb.slotsPerData beta (fun c => if c < 7 then st.1 c else 0) ∧
        Replicated shapeMb.slotsPerData v (fun c => if c < 7 then st.2 c else 0) := by
  have : NeZero (2 ^ 14) := ⟨by norm_num⟩
  exact C39_minibatch (n := 2 ^ 14) shapeMb (a := 11) (by rw [shapeMb_rows]; norm_num)
    (by rw [shapeMb_rows, shapeMb_cols]; norm_num) rfl (by rw [shapeMb_cols]; norm_num) p h3
    (by norm_num [Shape.numBatch, shapeMb]) hd hrow hl T

end MK.Lr
