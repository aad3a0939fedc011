import Verif.Shipped
import Verif.Props.LrMain
import Verif.Props.MbMain

/-!
# C51, C52 at the literals of lr/lr.go and lr/lr_minibatch.go

`MainOk` for the parameter set, hyperparameters and data shape written in lr/lr.go (21-56) and
lr/lr_minibatch.go (21-60): what
remains as hypotheses concerns the data, the samples and lattigo's encoder only.
-/

noncomputable section

namespace MK.Lr

open Finset

/-- The moduli of `PN15QP880` stay within `1 + 2⁻¹⁴` of the scale. -/
theorem pn_chain {prm : CPar pnCtx} (h : prm.scale = 2 ^ 38) : Chain prm (1 + 1 / 2 ^ 14) 1206 where
  one := by norm_num
  pos := by norm_num
  pow := by
    have h : ((2 ^ 14 + 1) ^ 1206 * 2 : ℕ) ≤ 3 * (2 ^ 14) ^ 1206 := by decide +kernel
    have h' : ((2 ^ 14 + 1) ^ 1206 * 2 : ℚ) ≤ 3 * (2 ^ 14) ^ 1206 := by exact_mod_cast h
    have e : (1 + 1 / 2 ^ 14 : ℚ) = (2 ^ 14 + 1) / 2 ^ 14 := by norm_num
    rw [e, div_pow, div_le_div_iff₀ (by positivity) (by norm_num)]
    exact h'
  scale := by rw [h]; norm_num
  lo := by
    have h1 : ∀ i < 21, 2 ^ 38 * (2 ^ 50 + 1) * 2 ^ 14 ≤ (2 ^ 14 + 1) * pnQ i * 2 ^ 50 := by
      decide +kernel
    intro i hi
    have h2 : ((2 ^ 38 * (2 ^ 50 + 1) * 2 ^ 14 : ℕ) : ℚ) ≤ ((2 ^ 14 + 1) * pnQ i * 2 ^ 50 : ℕ) := by
      exact_mod_cast h1 i hi
    rw [h]
    show (2 : ℚ) ^ 38 * (1 + 1 / 2 ^ 50) ≤ (1 + 1 / 2 ^ 14) * (pnQ i : ℕ)
    push_cast at h2
    linarith
  hi := by
    have h1 : ∀ i < 21, 1 ≤ i → pnQ i * (2 ^ 50 + 1) * 2 ^ 14 ≤ (2 ^ 14 + 1) * 2 ^ 38 * 2 ^ 50 := by
      decide +kernel
    intro i hi1 hi
    have h2 : ((pnQ i * (2 ^ 50 + 1) * 2 ^ 14 : ℕ) : ℚ) ≤ ((2 ^ 14 + 1) * 2 ^ 38 * 2 ^ 50 : ℕ) := by
      exact_mod_cast h1 i hi hi1
    rw [h]
    show ((pnQ i : ℕ) : ℚ) * (1 + 1 / 2 ^ 50) ≤ (1 + 1 / 2 ^ 14) * 2 ^ 38
    push_cast at h2
    linarith

/-- The digits: one modulus each, below `2 q_0`. -/
theorem pn_digit : digitMax pnCtx (2 * 0x80000000080001) := by
  intro L hL k _
  have hq : ∀ i < 21, pnQ i ≤ 0x80000000080001 := by decide +kernel
  have ha : pnCtx.alpha = 1 := rfl
  have hs : (range (L + 1)).filter (· / pnCtx.alpha = k) ⊆ {k} := by
    intro i hi
    rw [mem_filter, ha, Nat.div_one] at hi
    simp [hi.2]
  have h1 : blockSetProd pnCtx L k ≤ 0x80000000080001 := by
    unfold blockSetProd
    rcases subset_singleton_iff.mp hs with h | h
    · rw [h, prod_empty]; norm_num
    · rw [h, prod_singleton]
      have : k ∈ (range (L + 1)).filter (· / pnCtx.alpha = k) := by rw [h]; simp
      rw [mem_filter, mem_range] at this
      exact hq k (lt_of_lt_of_le this.1 hL)
  exact_mod_cast Nat.mul_le_mul_left 2 h1

/-- lr/lr.go 30-36: `batchSize`, `gamma`, `eta`, `c3`, `c1`, `c0`. -/
def lrHyper : Hyper ℂ where
  gamma := ((3 / 10 : ℚ) : ℂ)
  eta
    | 0 => ((1 : ℚ) : ℂ)
    | 1 => ((161803 / 100000 : ℚ) : ℂ)
    | 2 => ((2193527 / 1000000 : ℚ) : ℂ)
    | 3 => ((274979 / 100000 : ℚ) : ℂ)
    | _ => ((0 : ℚ) : ℂ)
  c3 := ((-15 / 10000 : ℚ) : ℂ)
  c1 := ((15 / 100 : ℚ) : ℂ)
  c0 := ((1 / 2 : ℚ) : ℂ)
  batchSize := 2048

/-- lr/lr.go 21-39, 82, 91-97, 367. -/
def lrCfg : MainCfg where
  hp := lrHyper
  slotNum := 2 ^ 14
  numCol := 2 ^ 3
  numRow := 2 ^ 11
  numData := 10000
  numFeature := 7
  numIter := 4
  numCompany := 3
  testId := 1935
  isCls := (· = 0)

theorem norm_rat_le {x : ℂ} (q : ℚ) (hx : x = (q : ℂ)) {b : ℚ} (h : |q| ≤ b) {M : ℝ}
    (hM : (b : ℝ) ≤ M) : ‖x‖ ≤ M := by
  rw [hx]
  have : (q : ℂ) = ((q : ℝ) : ℂ) := by push_cast; rfl
  rw [this, Complex.norm_real, Real.norm_eq_abs]
  refine le_trans ?_ hM
  exact_mod_cast h

theorem lrHyper_eta (a : ℕ) : ∃ q : ℚ, lrHyper.eta a = (q : ℂ) ∧ 0 ≤ q ∧ q ≤ 3 := by
  match a with
  | 0 => exact ⟨_, rfl, by norm_num, by norm_num⟩
  | 1 => exact ⟨_, rfl, by norm_num, by norm_num⟩
  | 2 => exact ⟨_, rfl, by norm_num, by norm_num⟩
  | 3 => exact ⟨_, rfl, by norm_num, by norm_num⟩
  | _ + 4 => exact ⟨_, rfl, by norm_num, by norm_num⟩

theorem lrHyper_le {M : ℝ} (hM : 100 ≤ M) : HyperLe lrHyper M := by
  have hM' : ((100 : ℚ) : ℝ) ≤ M := by push_cast; exact hM
  refine ⟨by linarith, ?_, ?_, ?_, ?_, ?_, ?_, ?_, ?_, ?_⟩
  · rintro y (rfl | rfl)
    · exact norm_rat_le (-(3 / 10) / 2048 * (1 / 2 - 0)) (by simp [lrHyper]) (by norm_num) hM'
    · exact norm_rat_le (-(3 / 10) / 2048 * (1 / 2 - 1)) (by simp [lrHyper]) (by norm_num) hM'
  · intro a y hy
    obtain ⟨q, e, h0, h3⟩ := lrHyper_eta a
    rcases hy with rfl | rfl
    · exact norm_rat_le (-(1 - q) * (3 / 10) / 2048 * (1 / 2 - 0)) (by rw [e]; simp [lrHyper])
        (by rw [abs_le]; constructor <;> linarith) hM'
    · exact norm_rat_le (-(1 - q) * (3 / 10) / 2048 * (1 / 2 - 1)) (by rw [e]; simp [lrHyper])
        (by rw [abs_le]; constructor <;> linarith) hM'
  · exact norm_rat_le (-(3 / 10) / 2048 * (-15 / 10000)) (by simp [lrHyper]) (by norm_num) hM'
  · intro a
    obtain ⟨q, e, h0, h3⟩ := lrHyper_eta a
    exact norm_rat_le (-(1 - q) * (3 / 10) / 2048 * (-15 / 10000)) (by rw [e]; simp [lrHyper])
      (by rw [abs_le]; constructor <;> linarith) hM'
  · exact norm_rat_le (15 / 100 / (-15 / 10000)) (by simp [lrHyper]) (by norm_num) hM'
  · intro a
    obtain ⟨q, e, h0, h3⟩ := lrHyper_eta a
    exact norm_rat_le (1 - q) (by rw [e]; simp) (by rw [abs_le]; constructor <;> linarith) hM'
  · intro a
    obtain ⟨q, e, h0, h3⟩ := lrHyper_eta a
    exact norm_rat_le q e (by rw [abs_le]; constructor <;> linarith) hM'
  · exact norm_rat_le (-15 / 10000) (by simp [lrHyper]) (by norm_num) hM'
  · exact norm_rat_le (1 / 2) (by simp [lrHyper]) (by norm_num) hM'

/-- lr/lr_minibatch.go 27-37: as lr.go with another `batchSize`. -/
def mbHyper : Hyper ℂ := { lrHyper with batchSize := 512 }

theorem mbHyper_eta (a : ℕ) : ∃ q : ℚ, mbHyper.eta a = (q : ℂ) ∧ 0 ≤ q ∧ q ≤ 3 := lrHyper_eta a

theorem mbHyper_le {M : ℝ} (hM : 100 ≤ M) : HyperLe mbHyper M := by
  have hM' : ((100 : ℚ) : ℝ) ≤ M := by push_cast; exact hM
  refine ⟨by linarith, ?_, ?_, ?_, ?_, ?_, ?_, ?_, ?_, ?_⟩
  · rintro y (rfl | rfl)
    · exact norm_rat_le (-(3 / 10) / 512 * (1 / 2 - 0)) (by simp [mbHyper, lrHyper]) (by norm_num) hM'
    · exact norm_rat_le (-(3 / 10) / 512 * (1 / 2 - 1)) (by simp [mbHyper, lrHyper]) (by norm_num) hM'
  · intro a y hy
    obtain ⟨q, e, h0, h3⟩ := mbHyper_eta a
    rcases hy with rfl | rfl
    · exact norm_rat_le (-(1 - q) * (3 / 10) / 512 * (1 / 2 - 0)) (by rw [e]; simp [mbHyper, lrHyper])
        (by rw [abs_le]; constructor <;> linarith) hM'
    · exact norm_rat_le (-(1 - q) * (3 / 10) / 512 * (1 / 2 - 1)) (by rw [e]; simp [mbHyper, lrHyper])
        (by rw [abs_le]; constructor <;> linarith) hM'
  · exact norm_rat_le (-(3 / 10) / 512 * (-15 / 10000)) (by simp [mbHyper, lrHyper]) (by norm_num) hM'
  · intro a
    obtain ⟨q, e, h0, h3⟩ := mbHyper_eta a
    exact norm_rat_le (-(1 - q) * (3 / 10) / 512 * (-15 / 10000)) (by rw [e]; simp [mbHyper, lrHyper])
      (by rw [abs_le]; constructor <;> linarith) hM'
  · exact norm_rat_le (15 / 100 / (-15 / 10000)) (by simp [mbHyper, lrHyper]) (by norm_num) hM'
  · intro a
    obtain ⟨q, e, h0, h3⟩ := mbHyper_eta a
    exact norm_rat_le (1 - q) (by rw [e]; simp) (by rw [abs_le]; constructor <;> linarith) hM'
  · intro a
    obtain ⟨q, e, h0, h3⟩ := mbHyper_eta a
    exact norm_rat_le q e (by rw [abs_le]; constructor <;> linarith) hM'
  · exact norm_rat_le (-15 / 10000) (by simp [mbHyper, lrHyper]) (by norm_num) hM'
  · exact norm_rat_le (1 / 2) (by simp [mbHyper, lrHyper]) (by norm_num) hM'

/-- lr/lr_minibatch.go 21-43, 82, 184, 414. -/
def mbCfg : MbCfg where
  hp := mbHyper
  numSlots := 2 ^ 14
  numFeature := 7
  numTrain := 2048
  maskW := 2 ^ 3
  numData := 10000
  numIter := 4
  numCompany := 4
  testId := 1950
  isCls := (· = 0)

/-- What a run with the shipped parameters still needs besides its data: float64 and the encoder
behave, secrets are ternary and errors at most `19` (lattigo cuts at `6 σ = 19.2`), the CRS has all
moduli. -/
structure PnOk (E : Encoder pnCtx (List ℂ)) (prm0 : CPar pnCtx) (rnd : MainRand pnCtx)
    (numCompany : ℕ) (M ε δ : ℝ) : Prop where
  scale : prm0.scale = 2 ^ 38
  fl : prm0.fl.Ok
  crsLen : ((rnd.sample 0) 0).Q.len = pnCtx.nQ
  party : ∀ id ∈ companies numCompany, (rnd.party id).Ok 19
  encU : ∀ t, (rnd.enc t).u.Bdd 1
  encE0 : ∀ t, (rnd.enc t).e0.Bdd 19
  encE1 : ∀ t, (rnd.enc t).e1.Bdd 19
  encoder : E.Accurate (2 ^ 38) (2 ^ 14) (M + flErr M) (ε - flErr M) δ

/-- Up to four iterations fit the shipped parameters. -/
theorem PnOk.run {E : Encoder pnCtx (List ℂ)} {prm0 : CPar pnCtx} {rnd : MainRand pnCtx}
    {numCompany : ℕ} {M ε δ : ℝ} (h : PnOk E prm0 rnd numCompany M ε δ) (hc : 1 ≤ numCompany)
    {hp : Hyper ℂ} (hh : HyperLe hp M) (h3 : hp.c3 ≠ 0) {numIter : ℕ} (hi : numIter ≤ 4) :
    RunOk E prm0 15 hp (2 ^ 14) numIter numCompany rnd (1 + 1 / 2 ^ 14) 1206
      (2 * 0x80000000080001) 19 M ε δ where
  good := pnCtx_good
  fits := pnCtx_fits
  N_eq := rfl
  logN_pos := by norm_num
  slots := rfl
  fl := h.fl
  chain := pn_chain h.scale
  levels := by show 4 * numIter + 4 ≤ 21; omega
  drift := by
    have : 3 ^ numIter ≤ 3 ^ 4 := Nat.pow_le_pow_right (by norm_num) hi
    omega
  q0 := by show 2 < 0x80000000080001; norm_num
  B0 := by norm_num
  Bq := by show (2 * 19 : ℤ) < ((0x80000000080001 : ℕ) : ℤ); norm_num
  D0 := by norm_num
  digit := pn_digit
  crsLen := h.crsLen
  party := h.party
  encU := h.encU
  encE0 := h.encE0
  encE1 := h.encE1
  encoder := by rw [h.scale]; exact h.encoder
  two := by norm_num
  hyper := hh
  c3 := h3
  company := hc

/-- What the shipped lr.go still needs: in addition 10000 records of at least seven features, bounded
by `M ≥ 100`. -/
structure LrOk (E : Encoder pnCtx (List ℂ)) (prm0 : CPar pnCtx) (rnd : MainRand pnCtx)
    (data : List (List ℂ)) (labels : List ℂ) (M ε δ : ℝ) : Prop extends
    PnOk E prm0 rnd 3 M ε δ where
  hundred : 100 ≤ M
  dataLen : 10000 ≤ data.length
  labelLen : 10000 ≤ labels.length
  rowLen : ∀ i < 10000, 7 ≤ (data.getD i []).length
  dataLe : ∀ row ∈ data, ∀ x ∈ row, ‖x‖ ≤ M

theorem LrOk.main {E : Encoder pnCtx (List ℂ)} {prm0 : CPar pnCtx} {rnd : MainRand pnCtx}
    {data : List (List ℂ)} {labels : List ℂ} {M ε δ : ℝ} (h : LrOk E prm0 rnd data labels M ε δ) :
    MainOk E prm0 15 lrCfg rnd data labels (1 + 1 / 2 ^ 14) 1206 (2 * 0x80000000080001) 19 M ε δ where
  toRunOk := h.toPnOk.run (by norm_num) (lrHyper_le h.hundred)
    (by show ((-15 / 10000 : ℚ) : ℂ) ≠ 0; norm_num) le_rfl
  rows := ⟨11, rfl⟩
  cols := ⟨3, rfl⟩
  shape := by show 2 ^ 14 = 2 ^ 11 * 2 ^ 3; norm_num
  feat := by show 7 ≤ 2 ^ 3; norm_num
  batch := by show 2048 ≤ 2 ^ 11; norm_num
  batchData := by show 2048 ≤ 10000; norm_num
  dataLen := h.dataLen
  labelLen := h.labelLen
  rowLen := h.rowLen
  dataLe := h.dataLe
  testId := by show 1935 < 10000; norm_num

instance : NeZero lrCfg.slotNum := ⟨by show 2 ^ 14 ≠ 0; norm_num⟩

/-- **C51 (shipped literals).** The program of lr.go with its own parameters: for any 10000 records of
at least seven bounded features, any keys and samples within the samplers' bounds, any iteration
orders, `main` does not panic, no product or sum meets mismatched scales, the moduli suffice, and what
is printed and compared comes from polynomials at levels `16, 12, 8, 4` and `1` that hold the plain
training and prediction (up to the computed errors). -/
theorem C51_shipped {E : Encoder pnCtx (List ℂ)} {prm0 : CPar pnCtx} {rnd : MainRand pnCtx}
    {data : List (List ℂ)} {labels : List ℂ} {M ε δ : ℝ} (h : LrOk E prm0 rnd data labels M ε δ) :
    ∃ out, lrMain E prm0 15 lrCfg rnd data labels = .ok out ∧ out.prints.length = 4 ∧
      (∀ t < 4, ∃ (vb vv : AVal lrCfg.slotNum) (bd vd : List ℂ),
        vb.lvl = 16 - 4 * t ∧ vv.lvl = 16 - 4 * t ∧
        Replicated 8 vb.x (fun c => if c < 7 then (plainTrain lrCfg data labels (t + 1)).1 c else 0) ∧
        Replicated 8 vv.x (fun c => if c < 7 then (plainTrain lrCfg data labels (t + 1)).2 c else 0) ∧
        mainTrainVal (mainPar prm0 15 rnd) lrCfg data labels (2 * 0x80000000080001) 19
          (freshErr pnCtx (2 ^ 38) 19 ε) (t + 1) = some (vb, vv) ∧
        Reads E vb bd ∧ Reads E vv vd ∧ out.prints[t]? = some (bd.take 2, vd.take 2)) ∧
      ∃ vr : AVal lrCfg.slotNum,
        mainInferVal (mainPar prm0 15 rnd) lrCfg data labels (2 * 0x80000000080001) 19
          (freshErr pnCtx (2 ^ 38) 19 ε) = some vr ∧ vr.lvl = 1 ∧
        vr.x 0 = plainPredict lrCfg data labels ∧ Reads E vr out.result ∧
        out.correct = verdict (out.result.getD 0 0).re ((labels.getD 1935 0).re = 0) := by
  obtain ⟨out, e, hl, hp, vr, h1, h2, h3, -, h5, h6⟩ := C51_lr_main h.main
  rw [h.scale] at hp h1
  refine ⟨out, e, hl, fun t ht => ?_, vr, h1, h3, h2, h5, h6⟩
  obtain ⟨vb, vv, bd, vd, g1, g2, g3, g4, g5, -, -, g6⟩ := hp t ht
  have e1 : pnCtx.nQ - 1 - 4 * (t + 1) = 16 - 4 * t := by show 21 - 1 - 4 * (t + 1) = _; omega
  exact ⟨vb, vv, bd, vd, g4.trans e1, g5.trans e1, g2, g3, g1, g6⟩

/-! ## lr_minibatch.go -/

/-- What the shipped lr_minibatch.go still needs. -/
structure MbLrOk (E : Encoder pnCtx (List ℂ)) (prm0 : CPar pnCtx) (rnd : MainRand pnCtx)
    (data : List (List ℂ)) (labels : List ℂ) (M ε δ : ℝ) : Prop extends
    PnOk E prm0 rnd 4 M ε δ where
  hundred : 100 ≤ M
  dataLen : 10000 ≤ data.length
  labelLen : 10000 ≤ labels.length
  rowLen : ∀ i < 10000, 7 ≤ (data.getD i []).length
  dataLe : ∀ row ∈ data, ∀ x ∈ row, ‖x‖ ≤ M

theorem mbCfg_slotsPerData : mbCfg.shape.slotsPerData = 8 := by
  show 2 ^ Nat.clog 2 7 = 8
  decide +kernel

theorem mbCfg_numDataPerCt : mbCfg.shape.numDataPerCt = 2048 := by
  rw [Shape.numDataPerCt, mbCfg_slotsPerData]; rfl

theorem mbCfg_numBatch : mbCfg.shape.numBatch = 4 := rfl

theorem mbCfg_numCt : mbCfg.shape.numCtPerBatch = 1 := by
  rw [Shape.numCtPerBatch, mbCfg_numDataPerCt]; rfl

theorem mbCfg_perBatch : mbCfg.shape.perBatch = 512 := by
  rw [Shape.perBatch, Shape.realnumDataPerCt, mbCfg_numCt, mbCfg_numDataPerCt]; rfl

theorem MbLrOk.main {E : Encoder pnCtx (List ℂ)} {prm0 : CPar pnCtx} {rnd : MainRand pnCtx}
    {data : List (List ℂ)} {labels : List ℂ} {M ε δ : ℝ} (h : MbLrOk E prm0 rnd data labels M ε δ) :
    MbOk E prm0 15 mbCfg rnd data labels (1 + 1 / 2 ^ 14) 1206 (2 * 0x80000000080001) 19 M ε δ where
  toRunOk := h.toPnOk.run (by norm_num) (mbHyper_le h.hundred)
    (by show ((-15 / 10000 : ℚ) : ℂ) ≠ 0; norm_num) le_rfl
  rows := ⟨11, mbCfg_numDataPerCt⟩
  full := by rw [mbCfg_numDataPerCt, mbCfg_slotsPerData]; rfl
  mask := mbCfg_slotsPerData
  batches := by rw [mbCfg_numBatch]; norm_num
  trainData := by show 2048 ≤ 10000; norm_num
  dataLen := h.dataLen
  labelLen := h.labelLen
  rowLen := h.rowLen
  dataLe := h.dataLe
  testId := by show 1950 < 10000; norm_num

instance : NeZero mbCfg.numSlots := ⟨by show 2 ^ 14 ≠ 0; norm_num⟩

theorem nesterovRun_congr {p : Hyper ℂ} {G G' : ℕ → (ℕ → ℂ) → ℕ → ℂ} {T : ℕ}
    (h : ∀ a < T, G a = G' a) (st : (ℕ → ℂ) × (ℕ → ℂ)) : nesterovRun p G T st = nesterovRun p G' T st := by
  induction T with
  | zero => rfl
  | succ T ih => rw [nesterovRun, nesterovRun, h T (by omega), ih fun a ha => h a (by omega)]

/-- **C52 (shipped literals).** The program of lr_minibatch.go with its own parameters: for any 10000
records of at least seven bounded features, any keys and samples within the samplers' bounds, any
iteration orders, `main` does not panic, the moduli suffice, and what is printed and compared comes from
polynomials at levels `16, 12, 8, 4` and `1` that hold (up to the computed errors) the plain training, whose
iteration `a` uses the records `512 a` to `512 a + 511`, and the plain prediction. -/
theorem C52_shipped {E : Encoder pnCtx (List ℂ)} {prm0 : CPar pnCtx} {rnd : MainRand pnCtx}
    {data : List (List ℂ)} {labels : List ℂ} {M ε δ : ℝ} (h : MbLrOk E prm0 rnd data labels M ε δ) :
    ∃ out, mbMain E prm0 15 mbCfg rnd data labels = .ok out ∧ out.prints.length = 4 ∧
      (∀ t < 4, ∃ (vb vv : AVal mbCfg.numSlots) (bd vd : List ℂ),
        vb.lvl = 16 - 4 * t ∧ vv.lvl = 16 - 4 * t ∧
        (let st := nesterovRun mbHyper (fun a => gradOn mbHyper 7 (Ico (512 * a) (512 * a + 512))
            (entry data) fun d => target (· = 0) (labels.getD d 0)) (t + 1) (fun _ => 0, fun _ => 0)
         Replicated 8 vb.x (fun c => if c < 7 then st.1 c else 0) ∧
         Replicated 8 vv.x (fun c => if c < 7 then st.2 c else 0)) ∧
        mbMainVal (mainPar prm0 15 rnd) mbCfg data labels (2 * 0x80000000080001) 19
          (freshErr pnCtx (2 ^ 38) 19 ε) (t + 1) = some (vb, vv) ∧
        Reads E vb bd ∧ Reads E vv vd ∧ out.prints[t]? = some (bd.take 2, vd.take 2)) ∧
      ∃ vr : AVal mbCfg.numSlots,
        mbInferVal (mainPar prm0 15 rnd) mbCfg data labels (2 * 0x80000000080001) 19
          (freshErr pnCtx (2 ^ 38) 19 ε) = some vr ∧ vr.lvl = 1 ∧
        vr.x 0 = plainMbPredict mbCfg data labels ∧ Reads E vr out.result ∧
        out.correct = verdict (out.result.getD 0 0).re ((labels.getD 1950 0).re = 0) := by
  obtain ⟨out, e, hl, hp, vr, h1, h2, h3, -, h5, h6⟩ := C52_mb_main h.main
  rw [h.scale] at hp h1
  refine ⟨out, e, hl, fun t ht => ?_, vr, h1, h3, h2, h5, h6⟩
  obtain ⟨vb, vv, bd, vd, g1, g2, g3, g4, g5, -, -, g6⟩ := hp t ht
  have e1 : pnCtx.nQ - 1 - 4 * (t + 1) = 16 - 4 * t := by show 21 - 1 - 4 * (t + 1) = _; omega
  have e2 : plainMbTrain mbCfg data labels (t + 1) =
      nesterovRun mbHyper (fun a => gradOn mbHyper 7 (Ico (512 * a) (512 * a + 512))
        (entry data) fun d => target (· = 0) (labels.getD d 0)) (t + 1) (fun _ => 0, fun _ => 0) := by
    unfold plainMbTrain
    refine nesterovRun_congr (fun a ha => ?_) _
    have : a % mbCfg.shape.numBatch = a := Nat.mod_eq_of_lt (by rw [mbCfg_numBatch]; omega)
    rw [this, mbCfg_perBatch, min_eq_left (by show 512 * (a + 1) ≤ 2048; omega)]
    rfl
  rw [e2] at g2 g3
  exact ⟨vb, vv, bd, vd, g4.trans e1, g5.trans e1, ⟨g2, g3⟩, g1, g6⟩

end MK.Lr
