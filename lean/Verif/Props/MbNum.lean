import Verif.Props.LrNum
import Verif.Props.MbMain

/-!
# C61: error bounds as numbers for training in minibatches

As C56 for `main` of lr_minibatch.go: every batch is spread over `numCt` ciphertexts and each iteration
starts from two fresh encryptions of zero.
-/

namespace MK.Lr

namespace NCfg

/-- Bounds of `beta` and `v` after `t` iterations in minibatches of `numCt` ciphertexts. -/
def mbTrain (ν : NCfg) (n rows cols F numBatch numCt t : ℕ) : NVal × NVal :=
  Lr.mbTrain (M := Id) (numHE ν.p) (ν.consts n cols) rows cols numBatch numCt
    (fun _ _ => ν.data n cols F) (fun _ => (ν.ct (List.replicate n 0), ν.ct (List.replicate n 0))) t
    (ν.ct (List.replicate n 0)) (ν.ct (List.replicate n 0))

/-- Bounds of the result. -/
def mbInfer (ν : NCfg) (n rows cols F numBatch numCt t : ℕ) : NVal :=
  Lr.infer (M := Id) (numHE ν.p) (ν.consts n cols) F
    (ν.ct ((List.range n).map fun i => if i < F then ν.X else 0))
    (ν.mbTrain n rows cols F numBatch numCt t).1

/-- Bounds of `beta` and `v` for the shape of `cfg`. -/
noncomputable def mbTrainOf (ν : NCfg) (cfg : MbCfg) (t : ℕ) : NVal × NVal :=
  ν.mbTrain cfg.numSlots cfg.shape.numDataPerCt cfg.shape.slotsPerData cfg.numFeature
    cfg.shape.numBatch cfg.shape.numCtPerBatch t

@[inherit_doc mbInfer]
noncomputable def mbInferOf (ν : NCfg) (cfg : MbCfg) : NVal :=
  ν.mbInfer cfg.numSlots cfg.shape.numDataPerCt cfg.shape.slotsPerData cfg.numFeature
    cfg.shape.numBatch cfg.shape.numCtPerBatch cfg.numIter

end NCfg

noncomputable section

open Finset

variable {C : Ctx} {E : Encoder C (List ℂ)} {ε δ : ℝ} {ν : NCfg} {prm0 : CPar C} {logN : ℕ}
  {cfg : MbCfg} {rnd : MainRand C} {data : List (List ℂ)} {labels : List ℂ} {r : ℚ} {K : ℕ} {D B : ℤ}
  {M : ℝ}

/-- The packed data, labels and test record stay within the numbers. -/
theorem mb_inputs [NeZero cfg.numSlots] (h : MbOk E prm0 logN cfg rnd data labels r K D B M ε δ)
    (hX : ∀ i j, ‖entry data i j‖ ≤ (ν.X : ℝ)) :
    (∀ b i, ∀ j : ZMod cfg.numSlots, ‖toSlots cfg.numSlots (mbZ cfg data b i) j‖ ≤
      ((if j.val % cfg.shape.slotsPerData < cfg.numFeature then ν.X else 0 : ℚ) : ℝ)) ∧
    (∀ j : ZMod cfg.numSlots, ‖toSlots cfg.numSlots (mbTest cfg data) j‖ ≤
      ((if j.val < cfg.numFeature then ν.X else 0 : ℚ) : ℝ)) ∧
    (∀ b i, (mbLabel cfg labels b i).length = cfg.numSlots) ∧
    ∀ b i, ∀ y ∈ mbLabel cfg labels b i, y = 0 ∨ y = 1 := by
  have hX0 : (0 : ℝ) ≤ ν.X := (norm_nonneg _).trans (hX 0 0)
  have hc := cfg.shape.slotsPerData_pos
  obtain ⟨l, -, ll, lt, -⟩ := relabel_spec cfg.isCls h.labelLen
  obtain ⟨pz, -, -, -, labl, lab01⟩ := mb_packs h ll lt
  have pz' := C40_packBatchZ cfg.shape (data := data) (h.trainData.trans h.dataLen)
    fun i hi => h.rowLen i (lt_of_lt_of_le hi h.trainData)
  obtain ⟨ra, hra⟩ := h.rows
  have hFw : cfg.numFeature ≤ cfg.shape.slotsPerData := cfg.shape.numFeature_le
  have hFn : cfg.numFeature ≤ cfg.numSlots := by
    rw [h.full, hra]
    exact hFw.trans (Nat.le_mul_of_pos_left _ (by positivity))
  obtain ⟨t, et, t1, t2⟩ := packTest_spec (slotNum := cfg.numSlots) hFn (h.rowLen _ h.testId)
  have ett : mbTest cfg data = t := by rw [mbTest, et]; rfl
  refine ⟨fun b i j => ?_, fun j => ?_, labl, lab01⟩
  · obtain ⟨z, e, -, h2⟩ := pz' b i
    rw [pz] at e
    obtain rfl := Except.ok.inj e
    rw [toSlots, ← Nat.div_add_mod j.val cfg.shape.slotsPerData, h2 _ _ (Nat.mod_lt _ hc),
      Nat.mul_add_mod, Nat.mod_mod]
    split_ifs with a1 a2 a2
    · exact hX _ _
    · exact absurd a1.2 a2
    · simpa using hX0
    · simp
  · rw [ett, toSlots, t2]
    split_ifs
    · exact hX _ _
    · simp

attribute [local irreducible] setupCRS in
/-- **C61 (bounds).** The error of every printed pair and of the result of lr_minibatch.go is bounded by
numbers which depend on the parameters, the hyperparameters, the batch shape and a bound on the data
only, not on data, keys or samples. -/
theorem C61_bounds [NeZero cfg.numSlots] (h : MbOk E prm0 logN cfg rnd data labels r K D B M ε δ)
    (hν : ν.Ok (mainPar prm0 logN rnd) cfg.hp (companies cfg.numCompany).toFinset.card D 1 B
      (freshErr C prm0.scale B ε))
    (hX : ∀ i j, ‖entry data i j‖ ≤ (ν.X : ℝ)) :
    (∀ t vb vv, mbMainVal (mainPar prm0 logN rnd) cfg data labels D B (freshErr C prm0.scale B ε) t =
        some (vb, vv) → Below vb (ν.mbTrainOf cfg t).1 ∧ Below vv (ν.mbTrainOf cfg t).2) ∧
    ∀ vr, mbInferVal (mainPar prm0 logN rnd) cfg data labels D B (freshErr C prm0.scale B ε) =
        some vr → Below vr (ν.mbInferOf cfg) := by
  obtain ⟨hz, ht, hl, h01⟩ := mb_inputs h hX
  have hfl : (mainPar prm0 logN rnd).fl.Ok := h.fl
  have z0 : Dom (List.replicate cfg.numSlots (0 : ℚ)) (0 : Slots cfg.numSlots ℂ) :=
    Dom.replicate fun i => by simp
  have H := num_sim (n := cfg.numSlots) hν.par h.good hfl hν.pos
  have tr : ∀ t vb vv, mbMainVal (mainPar prm0 logN rnd) cfg data labels D B
      (freshErr C prm0.scale B ε) t = some (vb, vv) →
      Below vb (ν.mbTrainOf cfg t).1 ∧ Below vv (ν.mbTrainOf cfg t).2 := by
    intro t vb vv hv
    rw [mbMainVal, ← h.mask] at hv
    exact mbTrain_sim H (hν.consts cfg.shape.slotsPerData) cfg.shape.numDataPerCt
      cfg.shape.slotsPerData cfg.shape.numBatch cfg.shape.numCtPerBatch
      (fun b c => hν.data cfg.shape.slotsPerData cfg.numFeature (hz b c) (hl b c) (h01 b c))
      (fun _ => ⟨hν.ct z0, hν.ct z0⟩) t (hν.ct z0) (hν.ct z0) (vb, vv) hv
  refine ⟨tr, fun vr hv => ?_⟩
  rw [mbInferVal] at hv
  cases e : mbMainVal (mainPar prm0 logN rnd) cfg data labels D B (freshErr C prm0.scale B ε)
      cfg.numIter with
  | none => rw [e] at hv; cases hv
  | some p =>
    obtain ⟨vb, vv⟩ := p
    rw [e, ← h.mask] at hv
    exact infer_sim H (hν.consts cfg.shape.slotsPerData) cfg.numFeature (hν.ct (Dom.range ht))
      (tr _ _ _ e).1 vr hv

/-- **C61 (accuracy).** If the numbers stay in range, every printed number of lr_minibatch.go is within
the computed bound of the plain iterate of training in minibatches, the result within the computed bound
of the plain prediction, and `correct` is what the plain prediction gives unless that lies within the
bound of the threshold. -/
theorem C61_accuracy [NeZero cfg.numSlots]
    (h : MbOk E prm0 logN cfg rnd data labels r K D B (ν.M : ℝ) ε δ)
    (hν : ν.Ok (mainPar prm0 logN rnd) cfg.hp (companies cfg.numCompany).toFinset.card D 1 B
      (freshErr C prm0.scale B ε))
    (hX : ∀ i j, ‖entry data i j‖ ≤ (ν.X : ℝ)) :
    ∃ out, mbMain E prm0 logN cfg rnd data labels = .ok out ∧
      (∀ t < cfg.numIter, ∃ pb pv, out.prints[t]? = some (pb, pv) ∧
        ∀ c < 2, c < cfg.numFeature →
          (ν.In (ν.mbTrainOf cfg (t + 1)).1 →
            ‖pb.getD c 0 - (plainMbTrain cfg data labels (t + 1)).1 c‖ ≤
              (ν.mbTrainOf cfg (t + 1)).1.err + δ) ∧
          (ν.In (ν.mbTrainOf cfg (t + 1)).2 →
            ‖pv.getD c 0 - (plainMbTrain cfg data labels (t + 1)).2 c‖ ≤
              (ν.mbTrainOf cfg (t + 1)).2.err + δ)) ∧
      (ν.In (ν.mbInferOf cfg) →
        ‖out.result.getD 0 0 - plainMbPredict cfg data labels‖ ≤ (ν.mbInferOf cfg).err + δ ∧
        ((ν.mbInferOf cfg).err + δ < |(plainMbPredict cfg data labels).re - 1 / 2| →
          out.correct = verdict (plainMbPredict cfg data labels).re
            (cfg.isCls (labels.getD cfg.testId 0).re))) := by
  have hM : 0 ≤ ν.M := by
    have : (0 : ℝ) ≤ ν.M := zero_le_one.trans h.hyper.one
    exact_mod_cast this
  obtain ⟨out, ho, -, hpr, vr, ei, -⟩ := C52_mb_main h
  obtain ⟨a1, a2⟩ := C52_accuracy h ho
  obtain ⟨b1, b2⟩ := C61_bounds h hν hX
  refine ⟨out, ho, fun t ht => ?_, fun hin => ?_⟩
  · obtain ⟨vb, vv, bd, vd, e1, -⟩ := hpr t ht
    obtain ⟨pb, pv, e2, -, -, e3⟩ := a1 t ht vb vv e1
    obtain ⟨l1, l2⟩ := b1 _ _ _ e1
    refine ⟨pb, pv, e2, fun c hc hF => ⟨fun hin => ?_, fun hin => ?_⟩⟩
    · exact ((e3 c hc hF).1 (l1.in hν.par.q hM hin)).trans (by linarith [l1.err])
    · exact ((e3 c hc hF).2 (l2.in hν.par.q hM hin)).trans (by linarith [l2.err])
  · have l := b2 vr ei
    obtain ⟨c1, c2⟩ := a2 vr ei (l.in hν.par.q hM hin)
    exact ⟨c1.trans (by linarith [l.err]), fun hm => c2 (by linarith [l.err])⟩

end

end MK.Lr
