import Verif.Props.ExToy
import Verif.Props.FirstStep

/-! # Concrete cases for C75 and C76 -/

noncomputable section

namespace MK.Lr

open Finset

/-- Weights 1, 0, -1/4; learning rate 2; batches of two records. -/
def fsHyper : Hyper ℚ where
  gamma := 2
  eta a := if a = 0 then 1 else if a = 1 then 0 else -1 / 4
  c3 := -1 / 10
  c1 := 1 / 5
  c0 := 1 / 2
  batchSize := 2

/-- Record `d` has the features `d, d + 1`. -/
def fsZ (d k : ℕ) : ℚ := d + k

/-- Two iterations on two records: the step of the first one, `(1 - 1/2) z_1 - 1/2 z_0`. -/
example : (nesterovRun fsHyper (fun _ => grad fsHyper 2 2 fsZ fun d => d) 2 (fun _ => 0, fun _ => 0)).2 1 =
    1 / 2 := by
  obtain ⟨-, h1, h2, h3⟩ := C75_whole_batch (p := fsHyper) (by simp [fsHyper]) 2 2 fsZ fun d => d
  simp only at h1 h2 h3
  rw [h2, ← h1, h3]
  norm_num [fsHyper, fsZ, sum_range_succ]

/-- Whatever the features of records 0 and 1 are, four iterations on records `2a, 2a + 1` end the same. -/
example (f : ℕ → ℚ) :
    nesterovRun fsHyper (fun a => gradOn fsHyper 2 (Ico (2 * a) (2 * a + 2))
      (fun d k => if d < 2 then f k else fsZ d k) fun d => d) 4 (fun _ => 0, fun _ => 0) =
    nesterovRun fsHyper (fun a => gradOn fsHyper 2 (Ico (2 * a) (2 * a + 2)) fsZ fun d => d) 4
      (fun _ => 0, fun _ => 0) :=
  (C75_first_batch (p := fsHyper) (by simp [fsHyper]) 2 (fun a => Ico (2 * a) (2 * a + 2)) (T := 2)
    (Z := fun d k => if d < 2 then f k else fsZ d k) (Z' := fsZ) (y := fun d => d) (y' := fun d => d)
    (by
      intro a ha _ d hd
      rw [mem_Ico] at hd
      exact ⟨fun k => if_neg (by omega), rfl⟩)).2 (by simp [fsHyper])

example : ∃ out, lrToyMain (stdEncoder pnCtx) exPar sqrt53 15 toyCfg exRand exToyData exToyLabels = .ok out ∧
    out.result.length = 2 ^ 14 := by
  obtain ⟨data, -, out, h1, vr, -, ⟨m, -, h3⟩, -⟩ := C75_lr_toy (exPnOk 1) sqrt53_ok
    (exToyData_ok (by norm_num) le_rfl)
  refine ⟨out, h1, ?_⟩
  rw [h3, (exPnOk 1).encoder.len]

example : ∃ out, mbToyMain (stdEncoder pnCtx) exPar sqrt53 15 mbToyCfg exRand exToyData exToyLabels = .ok out ∧
    ∃ o, out.results[1999]? = some o ∧ o.length = 2 ^ 14 := by
  obtain ⟨data, -, out, h1, h2⟩ := C75_mb_toy (exPnOk 4) sqrt53_ok
    (exToyData_ok (den := 511) (by norm_num) (by norm_num))
  obtain ⟨vr, o, -, h3, ⟨m, -, h4⟩, -⟩ := h2 1999 (by norm_num)
  exact ⟨out, h1, o, h3, by rw [h4, (exPnOk 4).encoder.len]⟩

example : ∃ out, lrMain (stdEncoder pnCtx) exPar 15 lrCfg exRand exData exLabels = .ok out ∧
    ∃ (vv : AVal lrCfg.slotNum) (bd vd : List ℂ), out.prints[0]? = some (bd.take 2, vd.take 2) ∧
      Reads (stdEncoder pnCtx) vv vd ∧ vv.x 5 = 0 := by
  obtain ⟨out, h1, vb, vv, vb', vv', bd, vd, bd', vd', p1, -, -, s2, -, -, -, r2, -⟩ := C75_lr exLrOk
  exact ⟨out, h1, vv, bd, vd, p1, s2, r2 5⟩

example : ∃ out, mbMain (stdEncoder pnCtx) exPar 15 mbCfg exRand exData exLabels = .ok out ∧
    ∃ (vv : AVal mbCfg.numSlots) (bd vd : List ℂ), out.prints[0]? = some (bd.take 2, vd.take 2) ∧
      Reads (stdEncoder pnCtx) vv vd ∧ vv.x 5 = 0 := by
  obtain ⟨out, h1, vb, vv, vb', vv', bd, vd, bd', vd', p1, -, -, s2, -, -, -, r2, -⟩ := C75_mb exMbLrOk
  exact ⟨out, h1, vv, bd, vd, p1, s2, r2 5⟩

example : ∃ q : ℝ, (toyHyper 128).eta 3 = (q : ℂ) ∧ |q - nesWeight 3| ≤ 5 / 10 ^ 6 := by
  obtain ⟨q, h1, h2, -⟩ := C76_toy 3 (by norm_num) 128
  exact ⟨q, h1, h2⟩

example : ∃ q : ℝ, lrHyper.eta 2 = (q : ℂ) ∧ 1.6 < q - nesWeight 2 := by
  obtain ⟨q, h1, -, -, h2⟩ := C76_lr 2 (by norm_num)
  exact ⟨q, h1, h2 (by norm_num)⟩

/-- From `beta = v = 1` with gradient 1 in lr.go: `v` ends on the other side of `beta`. -/
example : ∃ ν : ℝ, 0.6 < ν ∧ ∀ c,
    (nesterov lrHyper (fun _ _ => 1) 1 (fun _ => 1, fun _ => 1)).2 c =
      1 - ν * ((nesterov lrHyper (fun _ _ => 1) 1 (fun _ => 1, fun _ => 1)).1 c - 1) :=
  (C76_momentum (p := lrHyper) (fun _ _ => 1) 1 (by norm_num) (by norm_num) (fun _ => 1, fun _ => 1)).2
    fun _ => rfl

end MK.Lr
