import Verif.Props.FlNorm
import Verif.Props.Shipped

/-!
# C54, C55 for the literals of lr/lr_toy.go and lr/lr_minibatch_toy.go
-/

noncomputable section

namespace MK.Lr

open Finset

/-- lr/lr_toy.go 32, lr/lr_minibatch_toy.go 34 -/
def toyEta : ℕ → ℚ
  | 0 => 1
  | 1 => 0
  | 2 => -28175 / 100000
  | 3 => -43404 / 100000
  | _ => 0

/-- lr/lr_toy.go 30-36, lr/lr_minibatch_toy.go 26-38; `b` is `batchSize`. -/
def toyHyper (b : ℕ) : Hyper ℂ where
  gamma := ((3 : ℚ) : ℂ)
  eta a := ((toyEta a : ℚ) : ℂ)
  c3 := ((-15 / 10000 : ℚ) : ℂ)
  c1 := ((15 / 100 : ℚ) : ℂ)
  c0 := ((1 / 2 : ℚ) : ℂ)
  batchSize := b

theorem toyEta_mem (a : ℕ) : 0 ≤ 1 - toyEta a ∧ 1 - toyEta a ≤ 2 ∧ |toyEta a| ≤ 1 := by
  rcases a with _ | _ | _ | _ | a <;> simp only [toyEta] <;> norm_num [abs_le]

theorem toyHyper_le {M : ℝ} (hM : 100 ≤ M) {b : ℕ} (hb : 1 ≤ b) : HyperLe (toyHyper b) M := by
  have hM' : ((100 : ℚ) : ℝ) ≤ M := by push_cast; exact hM
  have hb1 : (1 : ℚ) ≤ b := by exact_mod_cast hb
  have hb0 : (0 : ℚ) < b := by linarith
  have div_le : ∀ q : ℚ, |q| ≤ 100 → |q / b| ≤ 100 := by
    intro q hq
    rw [abs_div, abs_of_pos hb0, div_le_iff₀ hb0]
    nlinarith [abs_nonneg q]
  refine ⟨by linarith, ?_, ?_, ?_, ?_, ?_, ?_, ?_, ?_, ?_⟩
  · rintro y (rfl | rfl)
    · exact norm_rat_le (-3 * (1 / 2 - 0) / b) (by simp [toyHyper]; ring) (div_le _ (by norm_num)) hM'
    · exact norm_rat_le (-3 * (1 / 2 - 1) / b) (by simp [toyHyper]; ring)
        (div_le _ (by norm_num)) hM'
  · intro a y hy
    obtain ⟨h0, h2, -⟩ := toyEta_mem a
    rcases hy with rfl | rfl
    · exact norm_rat_le (-(1 - toyEta a) * 3 * (1 / 2 - 0) / b) (by simp [toyHyper]; ring)
        (div_le _ (by rw [abs_le]; constructor <;> linarith)) hM'
    · exact norm_rat_le (-(1 - toyEta a) * 3 * (1 / 2 - 1) / b) (by simp [toyHyper]; ring)
        (div_le _ (by rw [abs_le]; constructor <;> linarith)) hM'
  · exact norm_rat_le (-3 * (-15 / 10000) / b) (by simp [toyHyper]; ring)
      (div_le _ (by norm_num)) hM'
  · intro a
    obtain ⟨h0, h2, -⟩ := toyEta_mem a
    exact norm_rat_le (-(1 - toyEta a) * 3 * (-15 / 10000) / b) (by simp [toyHyper]; ring)
      (div_le _ (by rw [abs_le]; constructor <;> linarith)) hM'
  · exact norm_rat_le (15 / 100 / (-15 / 10000)) (by simp [toyHyper]) (by norm_num) hM'
  · intro a
    obtain ⟨h0, h2, -⟩ := toyEta_mem a
    exact norm_rat_le (1 - toyEta a) (by simp [toyHyper]) (by rw [abs_le]; constructor <;> linarith) hM'
  · intro a
    obtain ⟨-, -, h1⟩ := toyEta_mem a
    exact norm_rat_le (toyEta a) rfl (h1.trans (by norm_num)) hM'
  · exact norm_rat_le (-15 / 10000) (by simp [toyHyper]) (by norm_num) hM'
  · exact norm_rat_le (1 / 2) (by simp [toyHyper]) (by norm_num) hM'

/-- lr/lr_toy.go 21-39, 82, 156-164, 301, 398 -/
def toyCfg : MainCfg where
  hp := toyHyper 512
  slotNum := 2 ^ 14
  numCol := 2 ^ 5
  numRow := 2 ^ 9
  numData := 2000
  numFeature := 20
  numIter := 2
  numCompany := 1
  testId := 1935
  isCls := (· = 0)

/-- lr/lr_minibatch_toy.go 21-43, 85, 212, 313 -/
def mbToyCfg : MbCfg where
  hp := toyHyper 128
  numSlots := 2 ^ 14
  numFeature := 20
  numTrain := 512
  maskW := 2 ^ 5
  numData := 2000
  numIter := 3
  numCompany := 4
  testId := 0
  isCls x := goInt x = 0

/-- What the toy data need: 2000 records of at least 20 features; the normalised columns vary over the
first 512 records and stay within `M - 1` standard deviations of their mean and within `κ` of zero (which
bounds the rounding errors); everything else is at most `M ≥ 100`. -/
structure ToyData (data : List (List ℂ)) (labels : List ℂ) (den M κ : ℝ) : Prop where
  hundred : 100 ≤ M
  dataLen : 2000 ≤ data.length
  labelLen : 2000 ≤ labels.length
  rowLen : ∀ i < 2000, 20 ≤ (data.getD i []).length
  varies : ∀ j < 20, toyCols j = true → Varies data 512 j
  one : 1 ≤ κ
  kappa : κ ≤ 4000
  close : ∀ i < 2000, ∀ j < 20, toyCols j = true →
    |(entry data i j).re| ≤ κ * Real.sqrt (colVar data 512 den j)
  inside : ∀ i < 2000, ∀ j < 20, toyCols j = true →
    |(entry data i j).re - colMean data 512 j| ≤ (M - 1) * Real.sqrt (colVar data 512 den j)
  outside : ∀ i j, ¬(i < 2000 ∧ j < 20 ∧ toyCols j = true) → ‖entry data i j‖ ≤ M

theorem ToyData.normalise {F : Fl} (hF : F.Ok) {sq : ℝ → ℝ} (hsq : SqrtOk sq)
    {data : List (List ℂ)} {labels : List ℂ} {den M κ : ℝ} (hden : 256 ≤ den)
    (h : ToyData data labels den M κ) :
    ∃ out, Lr.normalise F sq 512 den 20 2000 toyCols data = .ok out ∧
      (∀ j < 20, toyCols j = true → flStd F sq data 512 den j ≠ 0) ∧
      NearNormalised (514 * κ ^ 3 / 2 ^ 45) 512 den 20 2000 toyCols data out ∧
      ∀ row ∈ out, ∀ x ∈ row, ‖x‖ ≤ M := by
  have hr : ∀ i < 2000, ∀ j < 20, i < data.length ∧ j < (data.getD i []).length := fun i hi j hj =>
    ⟨by have := h.dataLen; omega, by have := h.rowLen i (by omega); omega⟩
  have hκ0 := h.one
  have hκ := h.kappa
  have hpow : κ ^ 3 ≤ 4000 ^ 3 := pow_le_pow_left₀ (by linarith) hκ 3
  obtain ⟨out, e, hz, hn⟩ := C63_normalise hF hsq (den := den) (κ := κ) (pop := 512) (numFeature := 20)
    (numData := 2000) (sel := toyCols) (data := data)
    (fun i hi j hj => hr i (by omega) j hj) (fun i hi j hj _ => hr i hi j hj) (by norm_num)
    (by push_cast; linarith) hκ0 (by
      have : κ ^ 2 ≤ 4000 ^ 2 := pow_le_pow_left₀ (by linarith) hκ 2
      norm_num at this ⊢
      linarith) h.varies (fun i hi j hj hj' => h.close i (by omega) j hj hj')
  have he : ((512 : ℕ) + 2 : ℝ) * κ ^ 3 / 2 ^ 45 = 514 * κ ^ 3 / 2 ^ 45 := by norm_num
  rw [he] at hn
  refine ⟨out, e, fun j hj hj' => ?_, hn, fun row hrow x hx => ?_⟩
  · exact hz j hj hj' _ (meanStd_spec F sq den fun i hi => hr i (by omega) j hj)
  obtain ⟨i, hi, rfl⟩ := List.getElem_of_mem hrow
  obtain ⟨j, hj, rfl⟩ := List.getElem_of_mem hx
  have hent : out[i][j] = entry out i j := by
    rw [entry, List.getD_eq_getElem _ _ hi, List.getD_eq_getElem _ _ hj]
  rw [hent]
  by_cases hs : i < 2000 ∧ j < 20 ∧ toyCols j = true
  · obtain ⟨h1, h2, h3⟩ := hs
    have hv := Real.sqrt_pos.mpr (colVar_pos (show 0 < den by linarith) (h.varies j h2 h3))
    have hq : |((entry data i j).re - colMean data 512 j) / Real.sqrt (colVar data 512 den j)| ≤ M - 1 := by
      rw [abs_div, abs_of_pos hv, div_le_iff₀ hv]
      exact h.inside i h1 j h2 h3
    have hre : entry out i j = ((entry out i j).re : ℂ) := Complex.ext rfl (by
      rw [hn.real i h1 j h2 h3, Complex.ofReal_im])
    have hc := hn.vals i h1 j h2 h3
    rw [hre, Complex.norm_real, Real.norm_eq_abs]
    have := abs_sub_abs_le_abs_sub (entry out i j).re
      (((entry data i j).re - colMean data 512 j) / Real.sqrt (colVar data 512 den j))
    norm_num at hc hpow
    linarith
  · rw [hn.keep i j hs]
    exact h.outside i j hs

theorem toy_mainOk {E : Encoder pnCtx (List ℂ)} {prm0 : CPar pnCtx} {rnd : MainRand pnCtx}
    {data0 data : List (List ℂ)} {labels : List ℂ} {M κ ε δ e : ℝ} (h : PnOk E prm0 rnd 1 M ε δ)
    (hd : ToyData data0 labels 512 M κ) (hn : NearNormalised e 512 512 20 2000 toyCols data0 data)
    (hle : ∀ row ∈ data, ∀ x ∈ row, ‖x‖ ≤ M) :
    MainOk E prm0 15 toyCfg rnd data labels (1 + 1 / 2 ^ 14) 1206 (2 * 0x80000000080001) 19 M ε δ where
  toRunOk := h.run (by norm_num) (toyHyper_le hd.hundred (by norm_num))
    (by show ((-15 / 10000 : ℚ) : ℂ) ≠ 0; norm_num) (by show 2 ≤ 4; norm_num)
  rows := ⟨9, rfl⟩
  cols := ⟨5, rfl⟩
  shape := by show 2 ^ 14 = 2 ^ 9 * 2 ^ 5; norm_num
  feat := by show 20 ≤ 2 ^ 5; norm_num
  batch := by show 512 ≤ 2 ^ 9; norm_num
  batchData := by show 512 ≤ 2000; norm_num
  dataLen := by rw [hn.len]; exact hd.dataLen
  labelLen := hd.labelLen
  rowLen i hi := by rw [hn.rows]; exact hd.rowLen i hi
  dataLe := hle
  testId := by show 1935 < 2000; norm_num

instance : NeZero toyCfg.slotNum := ⟨by show 2 ^ 14 ≠ 0; norm_num⟩

/-- **C54 (shipped literals).** lr_toy.go with its own parameters: for any such data, keys, samples and
iteration orders `main` does not panic, the moduli suffice, the printed slices are decoded from the packed
normalised data (exact up to `514 κ³ / 2^45`) at level 20, and the result from a polynomial at level 9 whose slot 0 holds the plain
prediction for record 1935 (up to the computed error). -/
theorem C54_shipped {E : Encoder pnCtx (List ℂ)} {prm0 : CPar pnCtx} {rnd : MainRand pnCtx}
    {data0 : List (List ℂ)} {labels : List ℂ} {M κ ε δ : ℝ} (h : PnOk E prm0 rnd 1 M ε δ)
    {sq : ℝ → ℝ} (hsq : SqrtOk sq)
    (hd : ToyData data0 labels 512 M κ) :
    ∃ data, NearNormalised (514 * κ ^ 3 / 2 ^ 45) 512 512 20 2000 toyCols data0 data ∧
    ∃ out, lrToyMain E prm0 sq 15 toyCfg rnd data0 labels = .ok out ∧
      (∃ zd, Reads E (freshVal prm0 (freshErr pnCtx (2 ^ 38) 19 ε) (toSlots toyCfg.slotNum (mainZ toyCfg data)))
          zd ∧ out.zPrints = [(zd.take 4).drop 0, (zd.take 9).drop 5, (zd.take 14).drop 10,
            (zd.take 19).drop 15, (zd.take 210).drop 200]) ∧
      ∃ vr : AVal toyCfg.slotNum,
        mainInferVal (mainPar prm0 15 rnd) toyCfg data labels (2 * 0x80000000080001) 19
          (freshErr pnCtx (2 ^ 38) 19 ε) = some vr ∧ vr.lvl = 9 ∧
        vr.x 0 = sigma3 (toyHyper 512) (∑ j ∈ range 20, entry data 1935 j *
          (nesterovRun (toyHyper 512) (fun _ => grad (toyHyper 512) 20 512 (entry data)
            fun i => target (· = 0) (labels.getD i 0)) 2 (fun _ => 0, fun _ => 0)).1 j) ∧
        Reads E vr out.result ∧
        out.correct = verdict (out.result.getD 0 0).re ((labels.getD 1935 0).re = 0) := by
  obtain ⟨data, e, hz, hn, hle⟩ := hd.normalise h.fl hsq (by norm_num)
  refine ⟨data, hn, ?_⟩
  have e' : normalise prm0.fl sq toyCfg.hp.batchSize toyCfg.hp.batchSize toyCfg.numFeature toyCfg.numData
      toyCols data0 = .ok data := by
    rw [← e]
    show normalise prm0.fl sq 512 ((512 : ℕ) : ℝ) 20 2000 toyCols data0 = _
    norm_num
  obtain ⟨out, h1, ⟨zd, h2, h3⟩, vr, h4, h5, h6, -, h7, h8⟩ := C54_toy_main e' (by
      show ∀ j < 20, _ → flStd prm0.fl sq data0 512 ((512 : ℕ) : ℝ) j ≠ 0
      simpa using hz)
    (toy_mainOk h hd hn hle) (by show 210 ≤ 2 ^ 14; norm_num)
  rw [h.scale] at h2 h4
  exact ⟨out, h1, ⟨zd, h2, h3⟩, vr, h4, h6, h5, h7, h8⟩

theorem mbToyCfg_slotsPerData : mbToyCfg.shape.slotsPerData = 32 := by
  show 2 ^ Nat.clog 2 20 = 32
  decide +kernel

theorem mbToyCfg_numDataPerCt : mbToyCfg.shape.numDataPerCt = 512 := by
  rw [Shape.numDataPerCt, mbToyCfg_slotsPerData]; rfl

theorem mbToyCfg_numBatch : mbToyCfg.shape.numBatch = 4 := rfl

theorem mbToyCfg_numCt : mbToyCfg.shape.numCtPerBatch = 1 := by
  rw [Shape.numCtPerBatch, mbToyCfg_numDataPerCt]; rfl

theorem mbToyCfg_perBatch : mbToyCfg.shape.perBatch = 128 := by
  rw [Shape.perBatch, Shape.realnumDataPerCt, mbToyCfg_numCt, mbToyCfg_numDataPerCt]; rfl

theorem mbToy_mainOk {E : Encoder pnCtx (List ℂ)} {prm0 : CPar pnCtx} {rnd : MainRand pnCtx}
    {data0 data : List (List ℂ)} {labels : List ℂ} {M κ ε δ e : ℝ} (h : PnOk E prm0 rnd 4 M ε δ)
    (hd : ToyData data0 labels 511 M κ) (hn : NearNormalised e 512 511 20 2000 toyCols data0 data)
    (hle : ∀ row ∈ data, ∀ x ∈ row, ‖x‖ ≤ M) :
    MbOk E prm0 15 mbToyCfg rnd data labels (1 + 1 / 2 ^ 14) 1206 (2 * 0x80000000080001) 19 M ε δ where
  toRunOk := h.run (by norm_num) (toyHyper_le hd.hundred (by norm_num))
    (by show ((-15 / 10000 : ℚ) : ℂ) ≠ 0; norm_num) (by show 3 ≤ 4; norm_num)
  rows := ⟨9, mbToyCfg_numDataPerCt⟩
  full := by rw [mbToyCfg_numDataPerCt, mbToyCfg_slotsPerData]; rfl
  mask := mbToyCfg_slotsPerData
  batches := by rw [mbToyCfg_numBatch]; norm_num
  trainData := by show 512 ≤ 2000; norm_num
  dataLen := by rw [hn.len]; exact hd.dataLen
  labelLen := hd.labelLen
  rowLen i hi := by rw [hn.rows]; exact hd.rowLen i hi
  dataLe := hle
  testId := by show 0 < 2000; norm_num

instance : NeZero mbToyCfg.numSlots := ⟨by show 2 ^ 14 ≠ 0; norm_num⟩

/-- **C55 (shipped literals).** lr_minibatch_toy.go with its own parameters: for any such data, keys,
samples and iteration orders `main` does not panic, the moduli suffice, and (up to the computed errors)
iteration `a` trains on the normalised (exact up to `514 κ³ / 2^45`) records `128 a` to `128 a + 127`, the results of all 2000 records
come from polynomials at level 5 whose slot 0 holds the plain prediction, and `correct` counts the results
that agree with the label. -/
theorem C55_shipped {E : Encoder pnCtx (List ℂ)} {prm0 : CPar pnCtx} {rnd : MainRand pnCtx}
    {data0 : List (List ℂ)} {labels : List ℂ} {M κ ε δ : ℝ} (h : PnOk E prm0 rnd 4 M ε δ)
    {sq : ℝ → ℝ} (hsq : SqrtOk sq)
    (hd : ToyData data0 labels 511 M κ) :
    ∃ data, NearNormalised (514 * κ ^ 3 / 2 ^ 45) 512 511 20 2000 toyCols data0 data ∧
    ∃ out, mbToyMain E prm0 sq 15 mbToyCfg rnd data0 labels = .ok out ∧ out.prints.length = 3 ∧
      (∀ t < 3, ∃ (vb vv : AVal mbToyCfg.numSlots) (bd vd : List ℂ),
        vb.lvl = 16 - 4 * t ∧ vv.lvl = 16 - 4 * t ∧
        (let st := nesterovRun (toyHyper 128) (fun a => gradOn (toyHyper 128) 20
            (Ico (128 * a) (128 * a + 128)) (entry data) fun d => target (goInt · = 0) (labels.getD d 0))
            (t + 1) (fun _ => 0, fun _ => 0)
         Replicated 32 vb.x (fun c => if c < 20 then st.1 c else 0) ∧
         Replicated 32 vv.x (fun c => if c < 20 then st.2 c else 0)) ∧
        mbMainVal (mainPar prm0 15 rnd) mbToyCfg data labels (2 * 0x80000000080001) 19
          (freshErr pnCtx (2 ^ 38) 19 ε) (t + 1) = some (vb, vv) ∧
        Reads E vb bd ∧ Reads E vv vd ∧ out.prints[t]? = some (bd.take 2, vd.take 2)) ∧
      out.results.length = 2000 ∧
      (∀ i < 2000, ∃ (vr : AVal mbToyCfg.numSlots) (o : List ℂ),
        mbInferVal (mainPar prm0 15 rnd) (mbToyCfg.at i) data labels (2 * 0x80000000080001) 19
          (freshErr pnCtx (2 ^ 38) 19 ε) = some vr ∧ vr.lvl = 5 ∧
        vr.x 0 = sigma3 (toyHyper 128) (∑ j ∈ range 20, entry data i j *
          (nesterovRun (toyHyper 128) (fun a => gradOn (toyHyper 128) 20
            (Ico (128 * a) (128 * a + 128)) (entry data) fun d => target (goInt · = 0) (labels.getD d 0))
            3 (fun _ => 0, fun _ => 0)).1 j) ∧
        out.results[i]? = some o ∧ Reads E vr o) ∧
      out.correct = ∑ i ∈ range 2000,
        verdict ((out.results.getD i []).getD 0 0).re (goInt (labels.getD i 0).re = 0) := by
  obtain ⟨data, e, hz, hn, hle⟩ := hd.normalise h.fl hsq (by norm_num)
  refine ⟨data, hn, ?_⟩
  have e' : normalise prm0.fl sq mbToyCfg.numTrain (mbToyCfg.numTrain - 1) mbToyCfg.numFeature mbToyCfg.numData
      toyCols data0 = .ok data := by
    rw [← e]
    show normalise prm0.fl sq 512 (((512 : ℕ) : ℝ) - 1) 20 2000 toyCols data0 = _
    norm_num
  obtain ⟨out, h1, h2, hp, h3, h4, h5⟩ := C55_mb_toy_main e' (by
      show ∀ j < 20, _ → flStd prm0.fl sq data0 512 (((512 : ℕ) : ℝ) - 1) j ≠ 0
      norm_num
      exact hz) (mbToy_mainOk h hd hn hle)
  rw [h.scale] at hp h4
  have e2 : ∀ t ≤ 3, plainMbTrain mbToyCfg data labels t =
      nesterovRun (toyHyper 128) (fun a => gradOn (toyHyper 128) 20 (Ico (128 * a) (128 * a + 128))
        (entry data) fun d => target (goInt · = 0) (labels.getD d 0)) t (fun _ => 0, fun _ => 0) := by
    intro t ht
    unfold plainMbTrain
    refine nesterovRun_congr (fun a ha => ?_) _
    have : a % mbToyCfg.shape.numBatch = a := Nat.mod_eq_of_lt (by rw [mbToyCfg_numBatch]; omega)
    rw [this, mbToyCfg_perBatch, min_eq_left (by show 128 * (a + 1) ≤ 512; omega)]
    rfl
  refine ⟨out, h1, h2, fun t ht => ?_, h3, fun i hi => ?_, h5⟩
  · obtain ⟨vb, vv, bd, vd, g1, g2, g3, g4, g5, -, -, g6⟩ := hp t ht
    have e1 : pnCtx.nQ - 1 - 4 * (t + 1) = 16 - 4 * t := by show 21 - 1 - 4 * (t + 1) = _; omega
    rw [e2 _ (by omega)] at g2 g3
    exact ⟨vb, vv, bd, vd, g4.trans e1, g5.trans e1, ⟨g2, g3⟩, g1, g6⟩
  · obtain ⟨vr, o, g1, g2, g3, -, g4, g5⟩ := h4 i hi
    refine ⟨vr, o, g1, g3, g2.trans ?_, g4, g5⟩
    rw [← e2 3 le_rfl]
    rfl

end MK.Lr
