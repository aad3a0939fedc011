import Verif.Props.SmallMb
import Verif.Props.ShippedToy

/-!
# C61 for the toy programs

The bounds of C56 and C61 hold for lr_toy.go and lr_minibatch_toy.go, which run the same training on
normalised data; evaluated for lr_minibatch_toy.go at ring degree 32.
-/

noncomputable section

namespace MK.Lr

open Finset

variable {C : Ctx} {E : Encoder C (List ℂ)} {ε δ : ℝ} {ν : NCfg} {prm0 : CPar C} {sq : ℝ → ℝ} {logN : ℕ}
  {rnd : MainRand C} {data0 data : List (List ℂ)} {labels : List ℂ} {r : ℚ} {K : ℕ} {D B : ℤ}

/-- **C61 (lr_toy.go).** If the numbers stay in range, the result is within the computed bound of the
plain prediction, and `correct` is what that gives unless it lies within the bound of the threshold. -/
theorem C61_toy_accuracy {cfg : MainCfg} [NeZero cfg.slotNum]
    (hnorm : normalise prm0.fl sq cfg.hp.batchSize cfg.hp.batchSize cfg.numFeature cfg.numData toyCols
      data0 = .ok data) (hstd : ∀ j < cfg.numFeature, toyCols j = true →
      flStd prm0.fl sq data0 cfg.hp.batchSize cfg.hp.batchSize j ≠ 0)
    (h : MainOk E prm0 logN cfg rnd data labels r K D B (ν.M : ℝ) ε δ) (h210 : 210 ≤ cfg.slotNum)
    (hν : ν.Ok (mainPar prm0 logN rnd) cfg.hp (companies cfg.numCompany).toFinset.card D 1 B
      (freshErr C prm0.scale B ε))
    (hX : ∀ i j, ‖entry data i j‖ ≤ (ν.X : ℝ))
    (hin : ν.In (ν.infer cfg.slotNum cfg.numRow cfg.numCol cfg.numFeature cfg.numIter)) :
    ∃ out, lrToyMain E prm0 sq logN cfg rnd data0 labels = .ok out ∧
      ‖out.result.getD 0 0 - plainPredict cfg data labels‖ ≤
        (ν.infer cfg.slotNum cfg.numRow cfg.numCol cfg.numFeature cfg.numIter).err + δ ∧
      ((ν.infer cfg.slotNum cfg.numRow cfg.numCol cfg.numFeature cfg.numIter).err + δ <
          |(plainPredict cfg data labels).re - 1 / 2| →
        out.correct = verdict (plainPredict cfg data labels).re
          (cfg.isCls (labels.getD cfg.testId 0).re)) := by
  have hM : 0 ≤ ν.M := by
    have : (0 : ℝ) ≤ ν.M := zero_le_one.trans h.hyper.one
    exact_mod_cast this
  obtain ⟨out, ho, -, vr, ei, -⟩ := C54_toy_main hnorm hstd h h210
  obtain ⟨-, a2⟩ := C54_accuracy hnorm hstd h h210 ho
  have l := (C56_bounds h hν hX).2 vr ei
  obtain ⟨c1, c2⟩ := a2 vr ei (l.in hν.par.q hM hin)
  exact ⟨out, ho, c1.trans (by linarith [l.err]), fun hm => c2 (by linarith [l.err])⟩

/-- **C61 (lr_minibatch_toy.go).** If the numbers stay in range, every printed number is within the
computed bound of the plain iterate, every result within the computed bound of the plain prediction for
its record; if no plain prediction lies within the bound of the threshold, `correct` is the number of
records that the plain model classifies correctly. -/
theorem C61_mb_toy_accuracy {cfg : MbCfg} [NeZero cfg.numSlots]
    (hnorm : normalise prm0.fl sq cfg.numTrain (cfg.numTrain - 1) cfg.numFeature cfg.numData toyCols
      data0 = .ok data) (hstd : ∀ j < cfg.numFeature, toyCols j = true →
      flStd prm0.fl sq data0 cfg.numTrain (cfg.numTrain - 1) j ≠ 0)
    (h : MbOk E prm0 logN cfg rnd data labels r K D B (ν.M : ℝ) ε δ)
    (hν : ν.Ok (mainPar prm0 logN rnd) cfg.hp (companies cfg.numCompany).toFinset.card D 1 B
      (freshErr C prm0.scale B ε))
    (hX : ∀ i j, ‖entry data i j‖ ≤ (ν.X : ℝ)) :
    ∃ out, mbToyMain E prm0 sq logN cfg rnd data0 labels = .ok out ∧
      (∀ t < cfg.numIter, ∃ pb pv, out.prints[t]? = some (pb, pv) ∧
        ∀ c < 2, c < cfg.numFeature →
          (ν.In (ν.mbTrainOf cfg (t + 1)).1 →
            ‖pb.getD c 0 - (plainMbTrain cfg data labels (t + 1)).1 c‖ ≤
              (ν.mbTrainOf cfg (t + 1)).1.err + δ) ∧
          (ν.In (ν.mbTrainOf cfg (t + 1)).2 →
            ‖pv.getD c 0 - (plainMbTrain cfg data labels (t + 1)).2 c‖ ≤
              (ν.mbTrainOf cfg (t + 1)).2.err + δ)) ∧
      (ν.In (ν.mbInferOf cfg) →
        (∀ i < cfg.numData, ‖(out.results.getD i []).getD 0 0 - plainMbPredict (cfg.at i) data labels‖ ≤
          (ν.mbInferOf cfg).err + δ) ∧
        ((∀ i < cfg.numData, (ν.mbInferOf cfg).err + δ <
            |(plainMbPredict (cfg.at i) data labels).re - 1 / 2|) →
          out.correct = ∑ i ∈ range cfg.numData, verdict (plainMbPredict (cfg.at i) data labels).re
            (cfg.isCls (labels.getD i 0).re))) := by
  have hM : 0 ≤ ν.M := by
    have : (0 : ℝ) ≤ ν.M := zero_le_one.trans h.hyper.one
    exact_mod_cast this
  obtain ⟨out, ho, -, hpr, -, hres, -⟩ := C55_mb_toy_main hnorm hstd h
  obtain ⟨a1, a2, a3⟩ := C55_accuracy hnorm hstd h ho
  obtain ⟨b1, -⟩ := C61_bounds h hν hX
  have b2 : ∀ i < cfg.numData, ∀ vr, mbInferVal (mainPar prm0 logN rnd) (cfg.at i) data labels D B
      (freshErr C prm0.scale B ε) = some vr → Below vr (ν.mbInferOf cfg) := fun i hi vr hv =>
    (C61_bounds (h.at hi) hν hX).2 vr hv
  refine ⟨out, ho, fun t ht => ?_, fun hin => ⟨fun i hi => ?_, fun hm => a3 fun i hi => ?_⟩⟩
  · obtain ⟨vb, vv, bd, vd, e1, -⟩ := hpr t ht
    obtain ⟨pb, pv, e2, -, -, e3⟩ := a1 t ht vb vv e1
    obtain ⟨l1, l2⟩ := b1 _ _ _ e1
    refine ⟨pb, pv, e2, fun c hc hF => ⟨fun hin => ?_, fun hin => ?_⟩⟩
    · exact ((e3 c hc hF).1 (l1.in hν.par.q hM hin)).trans (by linarith [l1.err])
    · exact ((e3 c hc hF).2 (l2.in hν.par.q hM hin)).trans (by linarith [l2.err])
  · obtain ⟨vr, o, ei, -⟩ := hres i hi
    have l := b2 i hi vr ei
    exact (a2 i hi vr ei (l.in hν.par.q hM hin)).trans (by linarith [l.err])
  · obtain ⟨vr, o, ei, -⟩ := hres i hi
    have l := b2 i hi vr ei
    exact ⟨vr, ei, l.in hν.par.q hM hin, by linarith [l.err, hm i hi]⟩

/-! ## At degree 32 -/

/-- The hyperparameters of lr/lr_minibatch_toy.go (26-38) with batches of four, as rational numbers. -/
def smtHyperQ : Hyper ℚ where
  gamma := 3
  eta := toyEta
  c3 := -15 / 10000
  c1 := 15 / 100
  c0 := 1 / 2
  batchSize := 4

theorem smtHyper_is : HyperIs (toyHyper 4) smtHyperQ := ⟨rfl, fun _ => rfl, rfl, rfl, rfl, rfl⟩

/-- lr_minibatch_toy.go with 16 slots: eight training records in two batches, rows of four, three features,
two iterations, four parties; ten records. -/
def smtCfg : MbCfg where
  hp := toyHyper 4
  numSlots := 16
  numFeature := 3
  numTrain := 8
  maskW := 2 ^ 2
  numData := 10
  numIter := 2
  numCompany := 4
  testId := 0
  isCls x := goInt x = 0

instance : NeZero smtCfg.numSlots := ⟨by show 16 ≠ 0; norm_num⟩

theorem smtCfg_slotsPerData : smtCfg.shape.slotsPerData = 4 := by
  show 2 ^ Nat.clog 2 3 = 4
  rw [show Nat.clog 2 3 = 2 from by decide]; norm_num

theorem smtCfg_numDataPerCt : smtCfg.shape.numDataPerCt = 4 := by
  rw [Shape.numDataPerCt, smtCfg_slotsPerData]; rfl

theorem smtCfg_numBatch : smtCfg.shape.numBatch = 2 := rfl

theorem smtCfg_numCt : smtCfg.shape.numCtPerBatch = 1 := by
  rw [Shape.numCtPerBatch, smtCfg_numDataPerCt]; rfl

/-- What a run at degree 32 needs: as `SmOk` with four parties; `data` are the records after
normalisation, of at least three features between `-2` and `2`. -/
structure SmToyOk (E : Encoder smCtx (List ℂ)) (prm0 : CPar smCtx) (sq : ℝ → ℝ) (rnd : MainRand smCtx)
    (data0 data : List (List ℂ)) (labels : List ℂ) (ε δ : ℝ) : Prop where
  scale : prm0.scale = 2 ^ 38
  fl : prm0.fl.Ok
  crsLen : ((rnd.sample 0) 0).Q.len = smCtx.nQ
  party : ∀ id ∈ companies 4, (rnd.party id).Ok 19
  encU : ∀ t, (rnd.enc t).u.Bdd 1
  encE0 : ∀ t, (rnd.enc t).e0.Bdd 19
  encE1 : ∀ t, (rnd.enc t).e1.Bdd 19
  encoder : E.Accurate (2 ^ 38) 16 (100 + flErr 100) (ε - flErr 100) δ
  eps0 : 0 ≤ ε
  eps : ε ≤ 1 / 2 ^ 32
  norm : normalise prm0.fl sq 8 7 3 10 toyCols data0 = .ok data
  std : ∀ j < 3, toyCols j = true → flStd prm0.fl sq data0 8 7 j ≠ 0
  dataLen : 10 ≤ data0.length
  labelLen : 10 ≤ labels.length
  rowLen : ∀ i < 10, 3 ≤ (data0.getD i []).length
  dataLe : ∀ i j, ‖entry data i j‖ ≤ 2

section

variable {E : Encoder smCtx (List ℂ)} {prm0 : CPar smCtx} {sq : ℝ → ℝ} {rnd : MainRand smCtx}
  {data0 data : List (List ℂ)} {labels : List ℂ} {ε δ : ℝ}

theorem entry_of_mem {data : List (List ℂ)} {row : List ℂ} {x : ℂ} (hr : row ∈ data) (hx : x ∈ row) :
    ∃ i j, entry data i j = x := by
  obtain ⟨i, hi, rfl⟩ := List.getElem_of_mem hr
  obtain ⟨j, hj, rfl⟩ := List.getElem_of_mem hx
  exact ⟨i, j, by rw [entry, List.getD_eq_getElem _ _ hi, List.getD_eq_getElem _ _ hj]⟩

theorem SmToyOk.main (h : SmToyOk E prm0 sq rnd data0 data labels ε δ) :
    MbOk E prm0 5 smtCfg rnd data labels (1 + 1 / 2 ^ 14) 1206 (2 * 0x80000000080001) 19
      ((100 : ℚ) : ℝ) ε δ where
  good := smCtx_good
  fits := smCtx_fits
  N_eq := rfl
  logN_pos := by norm_num
  slots := rfl
  fl := h.fl
  chain := sm_chain h.scale
  levels := by show 4 * 2 + 4 ≤ 21; norm_num
  drift := by show 15 * (3 ^ 2 - 1) + 6 ≤ 1206; norm_num
  q0 := by show 2 < 0x80000000080001; norm_num
  B0 := by norm_num
  Bq := by show (2 * 19 : ℤ) < ((0x80000000080001 : ℕ) : ℤ); norm_num
  D0 := by norm_num
  digit := sm_digit
  crsLen := h.crsLen
  party := h.party
  encU := h.encU
  encE0 := h.encE0
  encE1 := h.encE1
  encoder := by
    rw [h.scale]
    push_cast
    exact h.encoder
  two := by show 2 ≤ 16; norm_num
  hyper := by push_cast; exact toyHyper_le le_rfl (by norm_num)
  c3 := by show ((-15 / 10000 : ℚ) : ℂ) ≠ 0; norm_num
  company := by show 1 ≤ 4; norm_num
  rows := ⟨2, smtCfg_numDataPerCt⟩
  full := by rw [smtCfg_numDataPerCt, smtCfg_slotsPerData]; rfl
  mask := smtCfg_slotsPerData
  batches := by rw [smtCfg_numBatch]; norm_num
  trainData := by show 8 ≤ 10; norm_num
  dataLen := by rw [(normalise_ok h.norm).len]; exact h.dataLen
  labelLen := h.labelLen
  rowLen i hi := by rw [(normalise_ok h.norm).rows]; exact h.rowLen i hi
  dataLe row hr x hx := by
    obtain ⟨i, j, rfl⟩ := entry_of_mem hr hx
    exact (h.dataLe i j).trans (by norm_num)
  testId := by show 0 < 10; norm_num

/-- The numbers of that run. -/
def smtNum : NCfg where
  p := NPar.of smCtx (2 ^ 38) 4 (2 * 0x80000000080001) 1 19 4
  L := 20
  hp := smtHyperQ
  fe := 1 / 2 ^ 32 + 32 * ((2 * 32 + 1) * 19) / 2 ^ 38
  X := 2
  M := 100

theorem smtNum_of (t : ℕ) : smtNum.mbTrainOf smtCfg t = smtNum.mbTrain 16 4 4 3 2 1 t := by
  rw [NCfg.mbTrainOf, smtCfg_slotsPerData, smtCfg_numDataPerCt, smtCfg_numBatch, smtCfg_numCt]; rfl

theorem smtNum_inferOf : smtNum.mbInferOf smtCfg = smtNum.mbInfer 16 4 4 3 2 1 2 := by
  rw [NCfg.mbInferOf, smtCfg_slotsPerData, smtCfg_numDataPerCt, smtCfg_numBatch, smtCfg_numCt]; rfl

set_option maxRecDepth 100000 in
theorem smtNum_train : ∀ t < 2,
    smtNum.In (smtNum.mbTrain 16 4 4 3 2 1 (t + 1)).1 ∧
    smtNum.In (smtNum.mbTrain 16 4 4 3 2 1 (t + 1)).2 ∧
    (smtNum.mbTrain 16 4 4 3 2 1 (t + 1)).1.err ≤ 1 / 3000 ∧
    (smtNum.mbTrain 16 4 4 3 2 1 (t + 1)).2.err ≤ 1 / 3000 := by
  decide +kernel

set_option maxRecDepth 100000 in
theorem smtNum_infer : smtNum.In (smtNum.mbInfer 16 4 4 3 2 1 2) ∧
    (smtNum.mbInfer 16 4 4 3 2 1 2).err ≤ 1 / 200 := by
  decide +kernel

attribute [local irreducible] setupCRS in
theorem smtNum_ok (h : SmToyOk E prm0 sq rnd data0 data labels ε δ) :
    smtNum.Ok (mainPar prm0 5 rnd) smtCfg.hp (companies smtCfg.numCompany).toFinset.card
      (2 * 0x80000000080001) 1 19 (freshErr smCtx prm0.scale 19 ε) where
  par := by
    have := NPar.of_ok (c := 4) (D := 2 * 0x80000000080001) (T := 1) (B := 19) smCtx_good (by norm_num)
      (by norm_num) (by norm_num) (m := 4) (by norm_num) (by show 32 / 2 = 2 ^ 4; norm_num)
      (mainPar prm0 5 rnd)
    have hs : (mainPar prm0 5 rnd).scale = 2 ^ 38 := h.scale
    rw [hs] at this
    have hc : (companies smtCfg.numCompany).toFinset.card = 4 := by
      show (companies 4).toFinset.card = 4
      decide
    rw [hc]
    exact this
  L := rfl
  hyper := smtHyper_is
  fe0 := h.eps0.trans (le_freshErr (by rw [h.scale]; norm_num) (by norm_num) ε)
  fe := by
    have h1 := h.eps
    rw [freshErr, h.scale]
    show ε + ((32 : ℕ) : ℝ) * (((2 * ((32 : ℕ) : ℤ) + 1) * 19 : ℤ) : ℝ) / ((2 ^ 38 : ℚ) : ℝ) ≤
      ((1 / 2 ^ 32 + 32 * ((2 * 32 + 1) * 19) / 2 ^ 38 : ℚ) : ℝ)
    push_cast
    linarith
  pos := by
    have hs : (mainPar prm0 5 rnd).scale = 2 ^ 38 := h.scale
    rw [hs]; norm_num

/-- C61, evaluated at degree 32 for lr_minibatch_toy.go: whatever the samples, the keys, the map orders
and the data (after normalisation at most 2 in absolute value), main succeeds; the printed weights of
each iteration are within `1/3000` and the prediction for every record within `1/200` of the plain
computation, plus the decoding error; if no plain prediction comes this close to 1/2, `correct` is the
number of records that the plain model classifies correctly. -/
theorem C61_mb_toy_small (h : SmToyOk E prm0 sq rnd data0 data labels ε δ) :
    ∃ out, mbToyMain E prm0 sq 5 smtCfg rnd data0 labels = .ok out ∧
      (∀ t < 2, ∃ pb pv, out.prints[t]? = some (pb, pv) ∧ ∀ c < 2,
        ‖pb.getD c 0 - (plainMbTrain smtCfg data labels (t + 1)).1 c‖ ≤ 1 / 3000 + δ ∧
        ‖pv.getD c 0 - (plainMbTrain smtCfg data labels (t + 1)).2 c‖ ≤ 1 / 3000 + δ) ∧
      (∀ i < 10, ‖(out.results.getD i []).getD 0 0 - plainMbPredict (smtCfg.at i) data labels‖ ≤
        1 / 200 + δ) ∧
      ((∀ i < 10, 1 / 200 + δ < |(plainMbPredict (smtCfg.at i) data labels).re - 1 / 2|) →
        out.correct = ∑ i ∈ range 10, verdict (plainMbPredict (smtCfg.at i) data labels).re
          (goInt (labels.getD i 0).re = 0)) := by
  have hX : ∀ i j, ‖entry data i j‖ ≤ ((smtNum.X : ℚ) : ℝ) := by
    intro i j
    refine (h.dataLe i j).trans ?_
    show (2 : ℝ) ≤ ((2 : ℚ) : ℝ)
    norm_num
  have cast : ∀ {x y : ℚ}, x ≤ y → (x : ℝ) ≤ (y : ℝ) := fun h => by exact_mod_cast h
  have hd := h.dataLen
  have e : ((smtCfg.numTrain : ℕ) : ℝ) - 1 = 7 := by show ((8 : ℕ) : ℝ) - 1 = 7; norm_num
  obtain ⟨out, ho, hp, hr⟩ := C61_mb_toy_accuracy (sq := sq) (ν := smtNum) (cfg := smtCfg) (data0 := data0)
    (by rw [e]; exact h.norm) (by rw [e]; exact h.std) h.main (smtNum_ok h) hX
  obtain ⟨i1, i2⟩ := smtNum_infer
  rw [smtNum_inferOf] at hr
  have i3 := cast i2
  have e3 : ((1 / 200 : ℚ) : ℝ) = 1 / 200 := by norm_num
  rw [e3] at i3
  obtain ⟨r1, r2⟩ := hr i1
  refine ⟨out, ho, fun t ht => ?_, fun i hi => (r1 i hi).trans ?_,
    fun hm => r2 fun i hi => lt_of_le_of_lt ?_ (hm i hi)⟩
  · obtain ⟨pb, pv, e, hc⟩ := hp t ht
    obtain ⟨t1, t2, t3, t4⟩ := smtNum_train t ht
    have t3' := cast t3
    have t4' := cast t4
    have e1 : ((1 / 3000 : ℚ) : ℝ) = 1 / 3000 := by norm_num
    rw [e1] at t3' t4'
    refine ⟨pb, pv, e, fun c hc2 => ?_⟩
    have := hc c hc2 (lt_of_lt_of_le hc2 (by show 2 ≤ 3; norm_num))
    rw [smtNum_of] at this
    exact ⟨(this.1 t1).trans (add_le_add_left t3' δ), (this.2 t2).trans (add_le_add_left t4' δ)⟩
  · exact add_le_add_left i3 δ
  · exact add_le_add_left i3 δ

end

/-! ## A run -/

/-- Ten records that alternate between two values. -/
def smtData0 : List (List ℂ) := (List.range 10).map fun i => List.replicate 3 (if i % 2 = 0 then 1 else -1)

theorem smtEntry {i j : ℕ} (hi : i < 10) (hj : j < 3) :
    entry smtData0 i j = if i % 2 = 0 then 1 else -1 := by
  have h1 : i < smtData0.length := by simp [smtData0]; omega
  rw [entry, List.getD_eq_getElem _ _ h1]
  simp only [smtData0, List.getElem_map, List.getElem_range]
  rw [List.getD_eq_getElem _ _ (by simpa using hj), List.getElem_replicate]

/-- The normalised records exist and meet the requirements. -/
theorem smToyOk : ∃ data, SmToyOk (stdEncoder smCtx) smPar sqrt53 smRand smtData0 data smLabels
    ((smCtx.N : ℝ) / (2 * (2 ^ 38 : ℚ)) + flErr 100) 0 := by
  have hl : smtData0.length = 10 := by simp [smtData0]
  have hrow : ∀ i < 10, (smtData0.getD i []).length = 3 := by
    intro i hi
    rw [List.getD_eq_getElem _ _ (by omega)]
    simp [smtData0]
  have hre : ∀ i < 10, ∀ j < 3, (entry smtData0 i j).re = if i % 2 = 0 then 1 else -1 := by
    intro i hi j hj
    rw [smtEntry hi hj]
    split_ifs <;> simp
  have hmean : ∀ j < 3, colMean smtData0 8 j = 0 := by
    intro j hj
    rw [colMean, sum_congr rfl fun i hi => hre i (by have := mem_range.mp hi; omega) j hj]
    norm_num [sum_range_succ]
  have hvar : ∀ j < 3, colVar smtData0 8 7 j = 8 / 7 := by
    intro j hj
    rw [colVar, hmean j hj, sum_congr rfl fun i hi => by
      rw [hre i (by have := mem_range.mp hi; omega) j hj]]
    norm_num [sum_range_succ]
  have h1 : (1 : ℝ) ≤ Real.sqrt (8 / 7) := by
    rw [Real.one_le_sqrt]; norm_num
  obtain ⟨s, hs⟩ : ∃ s, s = Real.sqrt (8 / 7) := ⟨_, rfl⟩
  rw [← hs] at h1
  have hin : ∀ i j, i < 8 ∨ i < 10 → j < 3 → |(entry smtData0 i j).re| ≤ 1 := by
    intro i j hi hj
    rw [hre i (by omega) j hj]
    split_ifs <;> norm_num
  have hr : ∀ i < 10, ∀ j < 3, i < smtData0.length ∧ j < (smtData0.getD i []).length := fun i hi j hj =>
    ⟨by omega, by rw [hrow i hi]; exact hj⟩
  obtain ⟨data, e, hz, h⟩ := C63_normalise Fl.double_ok sqrt53_ok (pop := 8) (den := 7) (numFeature := 3)
    (numData := 10) (sel := toyCols) (data := smtData0) (κ := 1) (fun i hi j hj => hr i (by omega) j hj)
    (fun i hi j hj _ => hr i hi j hj) (by norm_num) (by norm_num) le_rfl (by norm_num)
    (fun j hj _ => ⟨0, by norm_num, 1, by norm_num, by
      rw [hre 0 (by norm_num) j hj, hre 1 (by norm_num) j hj]
      norm_num⟩)
    (fun i hi j hj _ => by
      rw [hvar j hj, ← hs, one_mul]
      exact (hin i j hi hj).trans h1)
  refine ⟨data, rfl, Fl.double_ok, rfl, smMbOk.party4, smOk.encU, smOk.encE0, smOk.encE1, smOk.encoder,
    smOk.eps0, smOk.eps, e, fun j hj hj' => hz j hj hj' _ (meanStd_spec _ _ _ fun i hi =>
      hr i (by omega) j hj), by rw [hl], smOk.labelLen, fun i hi => (hrow i hi).ge, fun i j => ?_⟩
  by_cases hc : i < 10 ∧ j < 3 ∧ toyCols j = true
  · have h2 := h.vals i hc.1 j hc.2.1 hc.2.2
    have hre' : entry data i j = ((entry data i j).re : ℂ) := Complex.ext rfl (by
      rw [h.real i hc.1 j hc.2.1 hc.2.2, Complex.ofReal_im])
    rw [hmean j hc.2.1, hvar j hc.2.1, ← hs, sub_zero] at h2
    rw [hre', Complex.norm_real, Real.norm_eq_abs]
    have h3 := abs_sub_abs_le_abs_sub (entry data i j).re ((entry smtData0 i j).re / s)
    have h4 : |(entry smtData0 i j).re / s| ≤ 1 := by
      rw [abs_div, abs_of_pos (show 0 < s by linarith), div_le_one (show 0 < s by linarith)]
      exact (hin i j (.inr hc.1) hc.2.1).trans h1
    norm_num at h2
    linarith
  · rw [h.keep i j hc]
    by_cases hi : i < 10
    · by_cases hj : j < 3
      · rw [smtEntry hi hj]; split_ifs <;> norm_num
      · rw [entry, List.getD_eq_default _ _ (by rw [hrow i hi]; omega)]; norm_num
    · rw [entry, List.getD_eq_default smtData0 _ (by omega)]; norm_num

/-- A run of lr_minibatch_toy.go at degree 32: its first results are near the plain predictions. -/
example : ∃ data out, normalise Fl.double sqrt53 8 7 3 10 toyCols smtData0 = .ok data ∧
    mbToyMain (stdEncoder smCtx) smPar sqrt53 5 smtCfg smRand smtData0 smLabels = .ok out ∧
    ∀ i < 10, ‖(out.results.getD i []).getD 0 0 - plainMbPredict (smtCfg.at i) data smLabels‖ ≤
      1 / 200 := by
  obtain ⟨data, h⟩ := smToyOk
  obtain ⟨out, ho, -, hr, -⟩ := C61_mb_toy_small h
  exact ⟨data, out, h.norm, ho, fun i hi => (hr i hi).trans (by norm_num)⟩

end MK.Lr
