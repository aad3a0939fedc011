import Verif.Props.HeapLr
import Verif.Props.ExToy

/-!
# C58 with the results of C51-C55; the shipped programs on the example inputs
-/

noncomputable section

namespace MK.Lr

variable {C : Ctx} {E : Encoder C (List ℂ)} {M ε δ : ℝ} {prm0 : CPar C} {logN : ℕ} {rnd : MainRand C}
  {data0 data : List (List ℂ)} {labels : List ℂ} {r : ℚ} {K : ℕ} {D B : ℤ}

/-- **C58** with C51: on any memory the pointer program of lr.go does not panic, and its prediction is
that of the training on plain numbers up to the error bound. -/
theorem C58_lr_accuracy {cfg : MainCfg} [NeZero cfg.slotNum]
    (h : MainOk E prm0 logN cfg rnd data labels r K D B M ε δ) (w : Heap C) :
    ∃ out, prints (Mem.lrMain E prm0 logN cfg rnd data labels) w = .ok out ∧
      ∀ vr, mainInferVal (mainPar prm0 logN rnd) cfg data labels D B (freshErr C prm0.scale B ε) =
          some vr → vr.In C M →
        ‖out.result.getD 0 0 - plainPredict cfg data labels‖ ≤ vr.err + δ ∧
        (vr.err + δ < |(plainPredict cfg data labels).re - 1 / 2| →
          out.correct = verdict (plainPredict cfg data labels).re
            (cfg.isCls (labels.getD cfg.testId 0).re)) := by
  obtain ⟨out, ho, -⟩ := C51_lr_main h
  exact ⟨out, (C58_lr ..).trans ho, (C51_accuracy h ho).2⟩

/-- **C58** with C52: the same for lr_minibatch.go. -/
theorem C58_mb_accuracy {cfg : MbCfg} [NeZero cfg.numSlots]
    (h : MbOk E prm0 logN cfg rnd data labels r K D B M ε δ) (w : Heap C) :
    ∃ out, prints (Mem.mbMain E prm0 logN cfg rnd data labels) w = .ok out ∧
      ∀ vr, mbInferVal (mainPar prm0 logN rnd) cfg data labels D B (freshErr C prm0.scale B ε) =
          some vr → vr.In C M →
        ‖out.result.getD 0 0 - plainMbPredict cfg data labels‖ ≤ vr.err + δ ∧
        (vr.err + δ < |(plainMbPredict cfg data labels).re - 1 / 2| →
          out.correct = verdict (plainMbPredict cfg data labels).re
            (cfg.isCls (labels.getD cfg.testId 0).re)) := by
  obtain ⟨out, ho, -⟩ := C52_mb_main h
  exact ⟨out, (C58_mb ..).trans ho, (C52_accuracy h ho).2⟩

/-- The shipped programs on the example inputs, from any memory. -/
example (w : Heap pnCtx) :
    (∃ out, prints (Mem.lrMain (stdEncoder pnCtx) exPar 15 lrCfg exRand exData exLabels) w = .ok out ∧
      out.prints.length = 4 ∧ out.result.length = 2 ^ 14) ∧
    (∃ out, prints (Mem.mbMain (stdEncoder pnCtx) exPar 15 mbCfg exRand exData exLabels) w = .ok out ∧
      out.prints.length = 4) ∧
    (∃ out, prints (Mem.lrToyMain (stdEncoder pnCtx) exPar sqrt53 15 toyCfg exRand exToyData exToyLabels) w =
      .ok out ∧ out.zPrints.length = 5) ∧
    ∃ out, prints (Mem.mbToyMain (stdEncoder pnCtx) exPar sqrt53 15 mbToyCfg exRand exToyData exToyLabels) w =
      .ok out ∧ out.results.length = 2000 := by
  refine ⟨?_, ?_, ?_, ?_⟩
  · obtain ⟨out, h1, h2, -, vr, -, -, -, ⟨m, -, h3⟩, -⟩ := C51_shipped exLrOk
    exact ⟨out, (C58_lr ..).trans h1, h2, by rw [h3, exLrOk.encoder.len]⟩
  · obtain ⟨out, h1, h2, -⟩ := C52_shipped exMbLrOk
    exact ⟨out, (C58_mb ..).trans h1, h2⟩
  · obtain ⟨data, -, out, h1, ⟨zd, -, h2⟩, -⟩ := C54_shipped (exPnOk 1) sqrt53_ok
      (exToyData_ok (by norm_num) le_rfl)
    exact ⟨out, (C58_lrToy ..).trans h1, by rw [h2]; rfl⟩
  · obtain ⟨data, -, out, h1, -, -, h3, -⟩ := C55_shipped (exPnOk 4) sqrt53_ok
      (exToyData_ok (den := 511) (by norm_num) (by norm_num))
    exact ⟨out, (C58_mbToy ..).trans h1, h3⟩

end MK.Lr
