import Verif.Props.Small
import Verif.Props.MbNum

/-!
# C61 evaluated: lr_minibatch.go with its moduli at ring degree 32

As C56 at degree 32: moduli, scale, hyperparameters, number of iterations and number of parties of
lr/lr_minibatch.go; two batches of four records, each spread over two ciphertexts.
-/

noncomputable section

namespace MK.Lr

open Finset

/-- The hyperparameters of lr/lr_minibatch.go (26, 30-35) with batches of four. -/
def smbHyper : Hyper ℂ := { lrHyper with batchSize := 4 }

/-- The same as rational numbers. -/
def smbHyperQ : Hyper ℚ := { smHyperQ with batchSize := 4 }

theorem smbHyper_is : HyperIs smbHyper smbHyperQ where
  gamma := smHyper_is.gamma
  eta := smHyper_is.eta
  c3 := smHyper_is.c3
  c1 := smHyper_is.c1
  c0 := smHyper_is.c0
  batchSize := rfl

/-- lr_minibatch.go with 16 slots: eight training records in two batches, rows of eight, seven features,
four iterations, four parties; ten records. -/
def smbCfg : MbCfg where
  hp := smbHyper
  numSlots := 16
  numFeature := 7
  numTrain := 8
  maskW := 2 ^ 3
  numData := 10
  numIter := 4
  numCompany := 4
  testId := 9
  isCls := (· = 0)

instance : NeZero smbCfg.numSlots := ⟨by show 16 ≠ 0; norm_num⟩

theorem smbCfg_slotsPerData : smbCfg.shape.slotsPerData = 8 := by
  show 2 ^ Nat.clog 2 7 = 8
  rw [show Nat.clog 2 7 = 3 from by decide]; norm_num

theorem smbCfg_numDataPerCt : smbCfg.shape.numDataPerCt = 2 := by
  rw [Shape.numDataPerCt, smbCfg_slotsPerData]; rfl

theorem smbCfg_numBatch : smbCfg.shape.numBatch = 2 := rfl

theorem smbCfg_numCt : smbCfg.shape.numCtPerBatch = 2 := by
  rw [Shape.numCtPerBatch, smbCfg_numDataPerCt]; rfl

theorem smbCfg_perBatch : smbCfg.shape.perBatch = 4 := by
  rw [Shape.perBatch, Shape.realnumDataPerCt, smbCfg_numCt, smbCfg_numDataPerCt]; rfl

theorem smbHyper_le : HyperLe smbHyper 100 := by
  have hM' : ((100 : ℚ) : ℝ) ≤ 100 := by norm_num
  have he : ∀ a, ∃ q : ℚ, smbHyper.eta a = (q : ℂ) ∧ 0 ≤ q ∧ q ≤ 3 := lrHyper_eta
  refine ⟨by norm_num, ?_, ?_, ?_, ?_, ?_, ?_, ?_, ?_, ?_⟩
  · rintro y (rfl | rfl)
    · exact norm_rat_le (-(3 / 10) / 4 * (1 / 2 - 0)) (by simp [smbHyper, lrHyper]) (by norm_num) hM'
    · exact norm_rat_le (-(3 / 10) / 4 * (1 / 2 - 1)) (by simp [smbHyper, lrHyper]) (by norm_num) hM'
  · intro a y hy
    obtain ⟨q, e, h0, h3⟩ := he a
    rcases hy with rfl | rfl
    · exact norm_rat_le (-(1 - q) * (3 / 10) / 4 * (1 / 2 - 0)) (by rw [e]; simp [smbHyper, lrHyper])
        (by rw [abs_le]; constructor <;> linarith) hM'
    · exact norm_rat_le (-(1 - q) * (3 / 10) / 4 * (1 / 2 - 1)) (by rw [e]; simp [smbHyper, lrHyper])
        (by rw [abs_le]; constructor <;> linarith) hM'
  · exact norm_rat_le (-(3 / 10) / 4 * (-15 / 10000)) (by simp [smbHyper, lrHyper]) (by norm_num) hM'
  · intro a
    obtain ⟨q, e, h0, h3⟩ := he a
    exact norm_rat_le (-(1 - q) * (3 / 10) / 4 * (-15 / 10000)) (by rw [e]; simp [smbHyper, lrHyper])
      (by rw [abs_le]; constructor <;> linarith) hM'
  · exact smHyper_le.c5
  · exact smHyper_le.c6
  · exact smHyper_le.c7
  · exact smHyper_le.c8
  · exact smHyper_le.c9

/-- What a run at degree 32 needs: float64 and an encoder with errors of together `2⁻³²`, samples within the
samplers' bounds, ten records of at least seven features between `-1` and `1`. -/
structure SmMbOk (E : Encoder smCtx (List ℂ)) (prm0 : CPar smCtx) (rnd : MainRand smCtx)
    (data : List (List ℂ)) (labels : List ℂ) (ε δ : ℝ) : Prop extends
    SmOk E prm0 rnd data labels ε δ where
  party4 : ∀ id ∈ companies 4, (rnd.party id).Ok 19

variable {E : Encoder smCtx (List ℂ)} {prm0 : CPar smCtx} {rnd : MainRand smCtx} {data : List (List ℂ)}
  {labels : List ℂ} {ε δ : ℝ}

theorem SmMbOk.main (h : SmMbOk E prm0 rnd data labels ε δ) :
    MbOk E prm0 5 smbCfg rnd data labels (1 + 1 / 2 ^ 14) 1206 (2 * 0x80000000080001) 19
      ((100 : ℚ) : ℝ) ε δ where
  good := smCtx_good
  fits := smCtx_fits
  N_eq := rfl
  logN_pos := by norm_num
  slots := rfl
  fl := h.fl
  chain := sm_chain h.scale
  levels := by show 4 * 4 + 4 ≤ 21; norm_num
  drift := by show 15 * (3 ^ 4 - 1) + 6 ≤ 1206; norm_num
  q0 := by show 2 < 0x80000000080001; norm_num
  B0 := by norm_num
  Bq := by show (2 * 19 : ℤ) < ((0x80000000080001 : ℕ) : ℤ); norm_num
  D0 := by norm_num
  digit := sm_digit
  crsLen := h.crsLen
  party := h.party4
  encU := h.encU
  encE0 := h.encE0
  encE1 := h.encE1
  encoder := by
    rw [h.scale]
    push_cast
    exact h.encoder
  two := by show 2 ≤ 16; norm_num
  hyper := by push_cast; exact smbHyper_le
  c3 := by show ((-15 / 10000 : ℚ) : ℂ) ≠ 0; norm_num
  company := by show 1 ≤ 4; norm_num
  rows := ⟨1, smbCfg_numDataPerCt⟩
  full := by rw [smbCfg_numDataPerCt, smbCfg_slotsPerData]; rfl
  mask := smbCfg_slotsPerData
  batches := by rw [smbCfg_numBatch]; norm_num
  trainData := by show 8 ≤ 10; norm_num
  dataLen := h.dataLen
  labelLen := h.labelLen
  rowLen := h.rowLen
  dataLe row hr x hx := (h.dataLe row hr x hx).trans (by norm_num)
  testId := by show 9 < 10; norm_num

/-- The numbers of that run. -/
def smbNum : NCfg where
  p := NPar.of smCtx (2 ^ 38) 4 (2 * 0x80000000080001) 1 19 4
  L := 20
  hp := smbHyperQ
  fe := 1 / 2 ^ 32 + 32 * ((2 * 32 + 1) * 19) / 2 ^ 38
  X := 1
  M := 100

theorem smbNum_of (t : ℕ) : smbNum.mbTrainOf smbCfg t = smbNum.mbTrain 16 2 8 7 2 2 t := by
  rw [NCfg.mbTrainOf, smbCfg_slotsPerData, smbCfg_numDataPerCt, smbCfg_numBatch, smbCfg_numCt]; rfl

theorem smbNum_inferOf : smbNum.mbInferOf smbCfg = smbNum.mbInfer 16 2 8 7 2 2 4 := by
  rw [NCfg.mbInferOf, smbCfg_slotsPerData, smbCfg_numDataPerCt, smbCfg_numBatch, smbCfg_numCt]; rfl

set_option maxRecDepth 100000 in
theorem smbNum_train : ∀ t < 4,
    smbNum.In (smbNum.mbTrain 16 2 8 7 2 2 (t + 1)).1 ∧
    smbNum.In (smbNum.mbTrain 16 2 8 7 2 2 (t + 1)).2 ∧
    (smbNum.mbTrain 16 2 8 7 2 2 (t + 1)).1.err ≤ 1 / 200 ∧
    (smbNum.mbTrain 16 2 8 7 2 2 (t + 1)).2.err ≤ 1 / 100 := by
  decide +kernel

set_option maxRecDepth 100000 in
theorem smbNum_infer : smbNum.In (smbNum.mbInfer 16 2 8 7 2 2 4) ∧
    (smbNum.mbInfer 16 2 8 7 2 2 4).err ≤ 3 / 100 := by
  decide +kernel

attribute [local irreducible] setupCRS in
theorem smbNum_ok (h : SmMbOk E prm0 rnd data labels ε δ) :
    smbNum.Ok (mainPar prm0 5 rnd) smbCfg.hp (companies smbCfg.numCompany).toFinset.card
      (2 * 0x80000000080001) 1 19 (freshErr smCtx prm0.scale 19 ε) where
  par := by
    have := NPar.of_ok (c := 4) (D := 2 * 0x80000000080001) (T := 1) (B := 19) smCtx_good (by norm_num)
      (by norm_num) (by norm_num) (m := 4) (by norm_num) (by show 32 / 2 = 2 ^ 4; norm_num)
      (mainPar prm0 5 rnd)
    have hs : (mainPar prm0 5 rnd).scale = 2 ^ 38 := h.scale
    rw [hs] at this
    have hc : (companies smbCfg.numCompany).toFinset.card = 4 := by
      show (companies 4).toFinset.card = 4
      decide
    rw [hc]
    exact this
  L := rfl
  hyper := smbHyper_is
  fe0 := (smNum_ok h.toSmOk).fe0
  fe := (smNum_ok h.toSmOk).fe
  pos := (smNum_ok h.toSmOk).pos

/-- C61, evaluated at degree 32: whatever the samples, the keys, the map orders and the data (at most 1
in absolute value), main of lr_minibatch.go succeeds; both printed weights of each iteration are within
`1/200`, those of the momentum vector within `1/100`, and the prediction for the test record within
`3/100` of the plain training in minibatches, plus the decoding error; the record is judged as by the
plain computation unless that comes this close to 1/2. -/
theorem C61_small (h : SmMbOk E prm0 rnd data labels ε δ) :
    ∃ out, mbMain E prm0 5 smbCfg rnd data labels = .ok out ∧
      (∀ t < 4, ∃ pb pv, out.prints[t]? = some (pb, pv) ∧ ∀ c < 2,
        ‖pb.getD c 0 - (plainMbTrain smbCfg data labels (t + 1)).1 c‖ ≤ 1 / 200 + δ ∧
        ‖pv.getD c 0 - (plainMbTrain smbCfg data labels (t + 1)).2 c‖ ≤ 1 / 100 + δ) ∧
      ‖out.result.getD 0 0 - plainMbPredict smbCfg data labels‖ ≤ 3 / 100 + δ ∧
      (3 / 100 + δ < |(plainMbPredict smbCfg data labels).re - 1 / 2| →
        out.correct = verdict (plainMbPredict smbCfg data labels).re
          (smbCfg.isCls (labels.getD smbCfg.testId 0).re)) := by
  have hX : ∀ i j, ‖entry data i j‖ ≤ ((smbNum.X : ℚ) : ℝ) := by
    intro i j
    refine (entry_le (M := 1) zero_le_one h.dataLe i j).trans ?_
    show (1 : ℝ) ≤ ((1 : ℚ) : ℝ)
    norm_num
  have cast : ∀ {x y : ℚ}, x ≤ y → (x : ℝ) ≤ (y : ℝ) := fun h => by exact_mod_cast h
  obtain ⟨out, ho, hp, hr⟩ := C61_accuracy (ν := smbNum) h.main (smbNum_ok h) hX
  obtain ⟨i1, i2⟩ := smbNum_infer
  rw [smbNum_inferOf] at hr
  have i3 := cast i2
  have e3 : ((3 / 100 : ℚ) : ℝ) = 3 / 100 := by norm_num
  rw [e3] at i3
  obtain ⟨r1, r2⟩ := hr i1
  refine ⟨out, ho, fun t ht => ?_, r1.trans ?_, fun hm => r2 (lt_of_le_of_lt ?_ hm)⟩
  · obtain ⟨pb, pv, e, hc⟩ := hp t ht
    obtain ⟨t1, t2, t3, t4⟩ := smbNum_train t ht
    have t3' := cast t3
    have t4' := cast t4
    have e1 : ((1 / 200 : ℚ) : ℝ) = 1 / 200 := by norm_num
    have e2 : ((1 / 100 : ℚ) : ℝ) = 1 / 100 := by norm_num
    rw [e1] at t3'
    rw [e2] at t4'
    refine ⟨pb, pv, e, fun c hc2 => ?_⟩
    have := hc c hc2 (lt_of_lt_of_le hc2 (by show 2 ≤ 7; norm_num))
    rw [smbNum_of] at this
    exact ⟨(this.1 t1).trans (add_le_add_left t3' δ), (this.2 t2).trans (add_le_add_left t4' δ)⟩
  · exact add_le_add_left i3 δ
  · exact add_le_add_left i3 δ

/-! ## A run -/

theorem smMbOk : SmMbOk (stdEncoder smCtx) smPar smRand smData smLabels
    ((smCtx.N : ℝ) / (2 * (2 ^ 38 : ℚ)) + flErr 100) 0 where
  toSmOk := smOk
  party4 _ _ := ⟨smTern_bdd _, smErr_bdd _, smTern_bdd _, fun _ => smErr_bdd _, fun _ => smErr_bdd _,
    fun _ => smErr_bdd _, fun _ _ => smErr_bdd _⟩

/-- All records are alike, so the batches do not matter: the iterates are those of `smIter`. -/
theorem smbTrain_eq (t : ℕ) : ∀ c < 7, (plainMbTrain smbCfg smData smLabels t).1 c = ((smIter t).1 : ℂ) ∧
    (plainMbTrain smbCfg smData smLabels t).2 c = ((smIter t).2 : ℂ) := by
  induction t with
  | zero => intro c _; simp [plainMbTrain, nesterovRun, smIter]
  | succ t ih =>
    intro c hc
    obtain ⟨I, hI⟩ : ∃ I, I = Ico (smbCfg.shape.perBatch * (t % smbCfg.shape.numBatch))
      (min (smbCfg.shape.perBatch * (t % smbCfg.shape.numBatch + 1)) smbCfg.numTrain) := ⟨_, rfl⟩
    have hI' : I = Ico (4 * (t % 2)) (min (4 * (t % 2 + 1)) 8) := by
      rw [hI, smbCfg_perBatch, smbCfg_numBatch]; rfl
    have hcard : I.card = 4 := by
      rw [hI', Nat.card_Ico]
      have : t % 2 < 2 := Nat.mod_lt _ (by norm_num)
      omega
    have hlt : ∀ r ∈ I, r < 10 := by
      intro r hr
      rw [hI', mem_Ico] at hr
      omega
    have hg : ∀ c < 7, gradOn smbHyper 7 I (entry smData)
        (fun i => target smbCfg.isCls (smLabels.getD i 0))
        (plainMbTrain smbCfg smData smLabels t).2 c =
        4 * (sigma3 smbHyper (7 * ((smIter t).2 : ℂ)) - 1) := by
      intro c hc
      have hsum : ∀ r ∈ I, (sigma3 smbHyper (∑ k ∈ range 7, entry smData r k *
          (plainMbTrain smbCfg smData smLabels t).2 k) - target smbCfg.isCls (smLabels.getD r 0)) *
            entry smData r c = sigma3 smbHyper (7 * ((smIter t).2 : ℂ)) - 1 := by
        intro r hr
        have hr := hlt r hr
        rw [smEntry hr hc, mul_one, sum_congr rfl (g := fun _ => ((smIter t).2 : ℂ)) fun k hk => by
          rw [smEntry hr (mem_range.mp hk), one_mul, (ih k (mem_range.mp hk)).2]]
        rw [sum_const, card_range, nsmul_eq_mul]
        simp [target, smLabels, smbCfg, -List.reduceReplicate, hr]
      rw [gradOn, sum_congr rfl hsum, sum_const, hcard, nsmul_eq_mul]
      norm_num
    have hb : ∀ c < 7, (plainMbTrain smbCfg smData smLabels (t + 1)).1 c = ((smIter (t + 1)).1 : ℂ) := by
      intro c hc
      have e : (plainMbTrain smbCfg smData smLabels (t + 1)).1 c =
          (plainMbTrain smbCfg smData smLabels t).2 c - smbHyper.gamma / smbHyper.batchSize *
          gradOn smbHyper 7 I (entry smData) (fun i => target smbCfg.isCls (smLabels.getD i 0))
          (plainMbTrain smbCfg smData smLabels t).2 c := by
        rw [hI]; rfl
      rw [e, hg c hc, (ih c hc).2, sigma3]
      show ((smIter t).2 : ℂ) - ((3 / 10 : ℚ) : ℂ) / ((4 : ℕ) : ℂ) * (4 *
        (((-15 / 10000 : ℚ) : ℂ) * (7 * ((smIter t).2 : ℂ)) ^ 3 +
          ((15 / 100 : ℚ) : ℂ) * (7 * ((smIter t).2 : ℂ)) + ((1 / 2 : ℚ) : ℂ) - 1)) =
        (((smIter t).2 - 3 / 10 * (-15 / 10000 * (7 * (smIter t).2) ^ 3 + 15 / 100 * (7 * (smIter t).2) +
          1 / 2 - 1) : ℚ) : ℂ)
      push_cast
      ring
    refine ⟨hb c hc, ?_⟩
    show (1 - smbHyper.eta t) * (plainMbTrain smbCfg smData smLabels (t + 1)).1 c + smbHyper.eta t *
      (plainMbTrain smbCfg smData smLabels t).1 c = (((1 - smHyperQ.eta t) * (smIter (t + 1)).1 +
        smHyperQ.eta t * (smIter t).1 : ℚ) : ℂ)
    have he : smbHyper.eta t = (smHyperQ.eta t : ℂ) := smHyper_is.eta t
    rw [hb c hc, (ih c hc).1, he]
    push_cast
    ring

/-- On this data the program counts the test record as correct. -/
example : ∃ out, mbMain (stdEncoder smCtx) smPar 5 smbCfg smRand smData smLabels = .ok out ∧
    out.correct = 1 := by
  obtain ⟨out, ho, -, -, hc⟩ := C61_small smMbOk
  have hpred : plainMbPredict smbCfg smData smLabels =
      ((-15 / 10000 * (7 * (smIter 4).1) ^ 3 + 15 / 100 * (7 * (smIter 4).1) + 1 / 2 : ℚ) : ℂ) := by
    have hsum : ∑ j ∈ range 7, entry smData 9 j * (plainMbTrain smbCfg smData smLabels 4).1 j =
        7 * ((smIter 4).1 : ℂ) := by
      rw [sum_congr rfl (g := fun _ => ((smIter 4).1 : ℂ)) fun k hk => by
        rw [smEntry (by norm_num) (mem_range.mp hk), one_mul, (smbTrain_eq 4 k (mem_range.mp hk)).1]]
      rw [sum_const, card_range, nsmul_eq_mul]
      norm_num
    show sigma3 smbHyper (∑ j ∈ range 7, entry smData 9 j *
      (plainMbTrain smbCfg smData smLabels 4).1 j) = _
    rw [hsum, sigma3]
    show ((-15 / 10000 : ℚ) : ℂ) * (7 * ((smIter 4).1 : ℂ)) ^ 3 +
      ((15 / 100 : ℚ) : ℂ) * (7 * ((smIter 4).1 : ℂ)) + ((1 / 2 : ℚ) : ℂ) = _
    push_cast
    ring
  have h35 : (3 / 5 : ℝ) ≤ (plainMbPredict smbCfg smData smLabels).re := by
    rw [hpred, Complex.ratCast_re]
    have : ((3 / 5 : ℚ) : ℝ) ≤ _ := Rat.cast_le.mpr smPredict_val
    refine le_trans ?_ this
    norm_num
  refine ⟨out, ho, ?_⟩
  rw [hc (by rw [abs_of_nonneg (by linarith)]; linarith), verdict,
    if_pos (iff_of_true (by linarith) (by simp [smbCfg, smLabels]))]

end MK.Lr
