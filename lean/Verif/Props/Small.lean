import Verif.Props.LrNum
import Verif.Props.Shipped

/-!
# C56 evaluated: lr.go with its moduli at ring degree 32

The worst-case noise of the shipped parameters exceeds the scale (the modulus-to-noise ratio falls with
the fifth power of the ring degree), so at degree `2^15` no worst-case bound says anything about the
printed numbers.  At degree 32, with the moduli, scale, hyperparameters, number of iterations and number
of parties of lr/lr.go, the bounds of `numHE` are small; the kernel evaluates them.
-/

noncomputable section

namespace MK

/-- The transform of degree `2^5`. -/
abbrev smEquiv (q : ℕ) [Fact q.Prime] (ψ : ℕ) (hq : 2 < q) (h : powMod q 6 ψ 32 + 1 = q) :
    Nega 32 (ZMod q) ≃+* Row 32 q := rootEquiv 32 5 q ψ (by norm_num) hq h

/-- The number-theoretic transforms modulo `Q`. -/
def smNttQ : Ntt 32 pnQ where
  equiv
  | 0 => smEquiv 0x80000000080001 13712172108039423 (by norm_num) (by decide +kernel)
  | 1 => smEquiv 0x4000170001 35285119426 (by norm_num) (by decide +kernel)
  | 2 => smEquiv 0x40002f0001 218843017727 (by norm_num) (by decide +kernel)
  | 3 => smEquiv 0x3fffe80001 102918108129 (by norm_num) (by decide +kernel)
  | 4 => smEquiv 0x4000300001 140246103047 (by norm_num) (by decide +kernel)
  | 5 => smEquiv 0x40003f0001 267039322267 (by norm_num) (by decide +kernel)
  | 6 => smEquiv 0x3fffcf0001 8593966720 (by norm_num) (by decide +kernel)
  | 7 => smEquiv 0x4000450001 15183348737 (by norm_num) (by decide +kernel)
  | 8 => smEquiv 0x3fffc10001 3184420067 (by norm_num) (by decide +kernel)
  | 9 => smEquiv 0x40004a0001 245443062645 (by norm_num) (by decide +kernel)
  | 10 => smEquiv 0x3fffb80001 149670687782 (by norm_num) (by decide +kernel)
  | 11 => smEquiv 0x3fffb70001 161504659763 (by norm_num) (by decide +kernel)
  | 12 => smEquiv 0x4000510001 223171823917 (by norm_num) (by decide +kernel)
  | 13 => smEquiv 0x3fffb20001 28346892452 (by norm_num) (by decide +kernel)
  | 14 => smEquiv 0x4000540001 249101509925 (by norm_num) (by decide +kernel)
  | 15 => smEquiv 0x3fffaf0001 231965025944 (by norm_num) (by decide +kernel)
  | 16 => smEquiv 0x4000560001 51194550859 (by norm_num) (by decide +kernel)
  | 17 => smEquiv 0x4000590001 44273012089 (by norm_num) (by decide +kernel)
  | 18 => smEquiv 0x3fff810001 93758217560 (by norm_num) (by decide +kernel)
  | 19 => smEquiv 0x40006b0001 157078985452 (by norm_num) (by decide +kernel)
  | 20 => smEquiv 0x4000720001 271182745880 (by norm_num) (by decide +kernel)
  | _ + 21 => trivEquiv 32

/-- The number-theoretic transforms modulo `P`. -/
def smNttP : Ntt 32 pnP where
  equiv
  | 0 => smEquiv 0x40000001b0001 647893483086549 (by norm_num) (by decide +kernel)
  | 1 => smEquiv 0x4000000270001 666481680224313 (by norm_num) (by decide +kernel)
  | _ + 2 => trivEquiv 32

/-- The moduli of lr/lr.go (40-55) at ring degree 32. -/
def smCtx : Ctx where
  N := 32
  q := pnQ
  p := pnP
  nQ := 21
  nP := 2
  gamma := 2
  nttQ := smNttQ
  nttP := smNttP
  fv := exactV

theorem smCtx_good : smCtx.Good :=
  ⟨pnCtx_good.oddQ, pnCtx_good.oddP, pnCtx_good.posQ, pnCtx_good.posP, pnCtx_good.copQ,
    pnCtx_good.copP, pnCtx_good.copQP, pnCtx_good.nQ_pos, pnCtx_good.alpha_pos⟩

theorem smCtx_fits : smCtx.Fits :=
  ⟨exactV_ok, pnCtx_fits.q_lt, pnCtx_fits.p_lt, pnCtx_fits.nP_le⟩

end MK

namespace MK.Lr

open Finset

/-- The hyperparameters of lr/lr.go (30-36) with two records. -/
def smHyper : Hyper ℂ := { lrHyper with batchSize := 2 }

/-- The same as rational numbers. -/
def smHyperQ : Hyper ℚ where
  gamma := 3 / 10
  eta
    | 0 => 1
    | 1 => 161803 / 100000
    | 2 => 2193527 / 1000000
    | 3 => 274979 / 100000
    | _ => 0
  c3 := -15 / 10000
  c1 := 15 / 100
  c0 := 1 / 2
  batchSize := 2

theorem smHyper_is : HyperIs smHyper smHyperQ where
  gamma := rfl
  eta a := by
    match a with
    | 0 => rfl
    | 1 => rfl
    | 2 => rfl
    | 3 => rfl
    | _ + 4 => rfl
  c3 := rfl
  c1 := rfl
  c0 := rfl
  batchSize := rfl

/-- lr.go with 16 slots: two training records in rows of eight, seven features, four iterations, three
parties; ten records. -/
def smCfg : MainCfg where
  hp := smHyper
  slotNum := 16
  numCol := 2 ^ 3
  numRow := 2
  numData := 10
  numFeature := 7
  numIter := 4
  numCompany := 3
  testId := 9
  isCls := (· = 0)

instance : NeZero smCfg.slotNum := ⟨by show 16 ≠ 0; norm_num⟩

theorem smHyper_le : HyperLe smHyper 100 := by
  have hM' : ((100 : ℚ) : ℝ) ≤ 100 := by norm_num
  have he : ∀ a, ∃ q : ℚ, smHyper.eta a = (q : ℂ) ∧ 0 ≤ q ∧ q ≤ 3 := lrHyper_eta
  refine ⟨by norm_num, ?_, ?_, ?_, ?_, ?_, ?_, ?_, ?_, ?_⟩
  · rintro y (rfl | rfl)
    · exact norm_rat_le (-(3 / 10) / 2 * (1 / 2 - 0)) (by simp [smHyper, lrHyper]) (by norm_num) hM'
    · exact norm_rat_le (-(3 / 10) / 2 * (1 / 2 - 1)) (by simp [smHyper, lrHyper]) (by norm_num) hM'
  · intro a y hy
    obtain ⟨q, e, h0, h3⟩ := he a
    rcases hy with rfl | rfl
    · exact norm_rat_le (-(1 - q) * (3 / 10) / 2 * (1 / 2 - 0)) (by rw [e]; simp [smHyper, lrHyper])
        (by rw [abs_le]; constructor <;> linarith) hM'
    · exact norm_rat_le (-(1 - q) * (3 / 10) / 2 * (1 / 2 - 1)) (by rw [e]; simp [smHyper, lrHyper])
        (by rw [abs_le]; constructor <;> linarith) hM'
  · exact norm_rat_le (-(3 / 10) / 2 * (-15 / 10000)) (by simp [smHyper, lrHyper]) (by norm_num) hM'
  · intro a
    obtain ⟨q, e, h0, h3⟩ := he a
    exact norm_rat_le (-(1 - q) * (3 / 10) / 2 * (-15 / 10000)) (by rw [e]; simp [smHyper, lrHyper])
      (by rw [abs_le]; constructor <;> linarith) hM'
  · exact norm_rat_le (15 / 100 / (-15 / 10000)) (by simp [smHyper, lrHyper]) (by norm_num) hM'
  · intro a
    obtain ⟨q, e, h0, h3⟩ := he a
    exact norm_rat_le (1 - q) (by rw [e]; simp) (by rw [abs_le]; constructor <;> linarith) hM'
  · intro a
    obtain ⟨q, e, h0, h3⟩ := he a
    exact norm_rat_le q e (by rw [abs_le]; constructor <;> linarith) hM'
  · exact norm_rat_le (-15 / 10000) (by simp [smHyper, lrHyper]) (by norm_num) hM'
  · exact norm_rat_le (1 / 2) (by simp [smHyper, lrHyper]) (by norm_num) hM'

theorem sm_chain {prm : CPar smCtx} (h : prm.scale = 2 ^ 38) : Chain prm (1 + 1 / 2 ^ 14) 1206 := by
  have := pn_chain (prm := ⟨GoMap.empty, 2 ^ 38, prm.fl, fun _ => 0⟩) rfl
  exact ⟨this.one, this.pos, this.pow, by rw [h]; norm_num, by rw [h]; exact this.lo,
    by rw [h]; exact this.hi⟩

theorem sm_digit : digitMax smCtx (2 * 0x80000000080001) := pn_digit

/-- What a run at degree 32 needs: float64 and an encoder with errors of together `2⁻³²`, samples within the
samplers' bounds, ten records of at least seven features between `-1` and `1`. -/
structure SmOk (E : Encoder smCtx (List ℂ)) (prm0 : CPar smCtx) (rnd : MainRand smCtx)
    (data : List (List ℂ)) (labels : List ℂ) (ε δ : ℝ) : Prop where
  scale : prm0.scale = 2 ^ 38
  fl : prm0.fl.Ok
  crsLen : ((rnd.sample 0) 0).Q.len = smCtx.nQ
  party : ∀ id ∈ companies 3, (rnd.party id).Ok 19
  encU : ∀ t, (rnd.enc t).u.Bdd 1
  encE0 : ∀ t, (rnd.enc t).e0.Bdd 19
  encE1 : ∀ t, (rnd.enc t).e1.Bdd 19
  encoder : E.Accurate (2 ^ 38) 16 (100 + flErr 100) (ε - flErr 100) δ
  eps0 : 0 ≤ ε
  eps : ε ≤ 1 / 2 ^ 32
  dataLen : 10 ≤ data.length
  labelLen : 10 ≤ labels.length
  rowLen : ∀ i < 10, 7 ≤ (data.getD i []).length
  dataLe : ∀ row ∈ data, ∀ x ∈ row, ‖x‖ ≤ 1

variable {E : Encoder smCtx (List ℂ)} {prm0 : CPar smCtx} {rnd : MainRand smCtx} {data : List (List ℂ)}
  {labels : List ℂ} {ε δ : ℝ}

theorem SmOk.main (h : SmOk E prm0 rnd data labels ε δ) :
    MainOk E prm0 5 smCfg rnd data labels (1 + 1 / 2 ^ 14) 1206 (2 * 0x80000000080001) 19
      ((100 : ℚ) : ℝ) ε δ where
  good := smCtx_good
  fits := smCtx_fits
  N_eq := rfl
  logN_pos := by norm_num
  slots := rfl
  fl := h.fl
  chain := sm_chain h.scale
  levels := by show 4 * 4 + 4 ≤ 21; norm_num
  drift := by show 15 * (3 ^ 4 - 1) + 6 ≤ 1206; norm_num
  q0 := by show 2 < 0x80000000080001; norm_num
  B0 := by norm_num
  Bq := by show (2 * 19 : ℤ) < ((0x80000000080001 : ℕ) : ℤ); norm_num
  D0 := by norm_num
  digit := sm_digit
  crsLen := h.crsLen
  party := h.party
  encU := h.encU
  encE0 := h.encE0
  encE1 := h.encE1
  encoder := by
    rw [h.scale]
    push_cast
    exact h.encoder
  two := by show 2 ≤ 16; norm_num
  hyper := by push_cast; exact smHyper_le
  c3 := by show ((-15 / 10000 : ℚ) : ℂ) ≠ 0; norm_num
  company := by show 1 ≤ 3; norm_num
  rows := ⟨1, rfl⟩
  cols := ⟨3, rfl⟩
  shape := by show 16 = 2 * 2 ^ 3; norm_num
  feat := by show 7 ≤ 2 ^ 3; norm_num
  batch := by show 2 ≤ 2; norm_num
  batchData := by show 2 ≤ 10; norm_num
  dataLen := h.dataLen
  labelLen := h.labelLen
  rowLen := h.rowLen
  dataLe row hr x hx := (h.dataLe row hr x hx).trans (by norm_num)
  testId := by show 9 < 10; norm_num

/-- The numbers of that run. -/
def smNum : NCfg where
  p := NPar.of smCtx (2 ^ 38) 3 (2 * 0x80000000080001) 1 19 4
  L := 20
  hp := smHyperQ
  fe := 1 / 2 ^ 32 + 32 * ((2 * 32 + 1) * 19) / 2 ^ 38
  X := 1
  M := 100

set_option maxRecDepth 100000 in
theorem smNum_train : ∀ t < 4,
    smNum.In (smNum.train 16 2 8 7 (t + 1)).1 ∧ smNum.In (smNum.train 16 2 8 7 (t + 1)).2 ∧
    (smNum.train 16 2 8 7 (t + 1)).1.err ≤ 1 / 400 ∧ (smNum.train 16 2 8 7 (t + 1)).2.err ≤ 1 / 250 := by
  decide +kernel

set_option maxRecDepth 100000 in
theorem smNum_infer : smNum.In (smNum.infer 16 2 8 7 4) ∧ (smNum.infer 16 2 8 7 4).err ≤ 7 / 500 := by
  decide +kernel

attribute [local irreducible] setupCRS in
theorem smNum_ok (h : SmOk E prm0 rnd data labels ε δ) :
    smNum.Ok (mainPar prm0 5 rnd) smCfg.hp (companies smCfg.numCompany).toFinset.card
      (2 * 0x80000000080001) 1 19 (freshErr smCtx prm0.scale 19 ε) where
  par := by
    have := NPar.of_ok (c := 3) (D := 2 * 0x80000000080001) (T := 1) (B := 19) smCtx_good (by norm_num)
      (by norm_num) (by norm_num) (m := 4) (by norm_num) (by show 32 / 2 = 2 ^ 4; norm_num)
      (mainPar prm0 5 rnd)
    have hs : (mainPar prm0 5 rnd).scale = 2 ^ 38 := h.scale
    rw [hs] at this
    have hc : (companies smCfg.numCompany).toFinset.card = 3 := by
      show (companies 3).toFinset.card = 3
      decide
    rw [hc]
    exact this
  L := rfl
  hyper := smHyper_is
  fe0 := h.eps0.trans (le_freshErr (by rw [h.scale]; norm_num) (by norm_num) ε)
  fe := by
    have h1 := h.eps
    rw [freshErr, h.scale]
    show ε + ((32 : ℕ) : ℝ) * (((2 * ((32 : ℕ) : ℤ) + 1) * 19 : ℤ) : ℝ) / ((2 ^ 38 : ℚ) : ℝ) ≤
      ((1 / 2 ^ 32 + 32 * ((2 * 32 + 1) * 19) / 2 ^ 38 : ℚ) : ℝ)
    push_cast
    linarith
  pos := by
    have hs : (mainPar prm0 5 rnd).scale = 2 ^ 38 := h.scale
    rw [hs]; norm_num

/-- C56, evaluated at degree 32: whatever the samples, the keys, the map orders and the data (at most 1
in absolute value), main of lr.go succeeds; both printed weights of each iteration are within `1/400`,
those of the momentum vector within `1/250`, and the prediction for the test record within `14/1000` of
the plain computation, plus the decoding error; the record is judged as by the plain computation unless
that comes this close to 1/2. -/
theorem C56_small (h : SmOk E prm0 rnd data labels ε δ) :
    ∃ out, lrMain E prm0 5 smCfg rnd data labels = .ok out ∧
      (∀ t < 4, ∃ pb pv, out.prints[t]? = some (pb, pv) ∧ ∀ c < 2,
        ‖pb.getD c 0 - (plainTrain smCfg data labels (t + 1)).1 c‖ ≤ 1 / 400 + δ ∧
        ‖pv.getD c 0 - (plainTrain smCfg data labels (t + 1)).2 c‖ ≤ 1 / 250 + δ) ∧
      ‖out.result.getD 0 0 - plainPredict smCfg data labels‖ ≤ 14 / 1000 + δ ∧
      (14 / 1000 + δ < |(plainPredict smCfg data labels).re - 1 / 2| →
        out.correct = verdict (plainPredict smCfg data labels).re
          (smCfg.isCls (labels.getD smCfg.testId 0).re)) := by
  have hX : ∀ i j, ‖entry data i j‖ ≤ ((smNum.X : ℚ) : ℝ) := by
    intro i j
    refine (entry_le (M := 1) zero_le_one h.dataLe i j).trans ?_
    show (1 : ℝ) ≤ ((1 : ℚ) : ℝ)
    norm_num
  obtain ⟨out, ho, hp, hr⟩ := C56_accuracy (ν := smNum) h.main (smNum_ok h) hX
  obtain ⟨i1, i2⟩ := smNum_infer
  have i3 : (((smNum.infer 16 2 8 7 4).err : ℚ) : ℝ) ≤ 14 / 1000 := by
    have : (((smNum.infer 16 2 8 7 4).err : ℚ) : ℝ) ≤ ((7 / 500 : ℚ) : ℝ) := by exact_mod_cast i2
    refine this.trans ?_
    norm_num
  obtain ⟨r1, r2⟩ := hr i1
  refine ⟨out, ho, fun t ht => ?_, r1.trans ?_, fun hm => r2 (lt_of_le_of_lt ?_ hm)⟩
  · obtain ⟨pb, pv, e, hc⟩ := hp t ht
    obtain ⟨t1, t2, t3, t4⟩ := smNum_train t ht
    refine ⟨pb, pv, e, fun c hc2 => ?_⟩
    obtain ⟨c1, c2⟩ := hc c hc2 (lt_of_lt_of_le hc2 (by show 2 ≤ 7; norm_num))
    have t3' : (((smNum.train 16 2 8 7 (t + 1)).1.err : ℚ) : ℝ) ≤ 1 / 400 := by
      have : (((smNum.train 16 2 8 7 (t + 1)).1.err : ℚ) : ℝ) ≤ ((1 / 400 : ℚ) : ℝ) := by
        exact_mod_cast t3
      refine this.trans ?_
      norm_num
    have t4' : (((smNum.train 16 2 8 7 (t + 1)).2.err : ℚ) : ℝ) ≤ 1 / 250 := by
      have : (((smNum.train 16 2 8 7 (t + 1)).2.err : ℚ) : ℝ) ≤ ((1 / 250 : ℚ) : ℝ) := by
        exact_mod_cast t4
      refine this.trans ?_
      norm_num
    exact ⟨(c1 t1).trans (add_le_add_left t3' δ), (c2 t2).trans (add_le_add_left t4' δ)⟩
  · exact add_le_add_left i3 δ
  · exact add_le_add_left i3 δ

/-! ## A run -/

/-- Parameters with 53-bit rounding. -/
def smPar : CPar smCtx := ⟨GoMap.empty, 2 ^ 38, Fl.double, fun _ => 0⟩

/-- A ternary polynomial. -/
def smTern (a : ℕ) : Nega smCtx.N ℤ := ⟨fun j => ((j.val + a) % 3 : ℕ) - 1⟩

/-- Coefficients from `-19` to `19`. -/
def smErr (a : ℕ) : Nega smCtx.N ℤ := ⟨fun j => ((j.val + a) % 39 : ℕ) - 19⟩

theorem smTern_bdd (a : ℕ) : (smTern a).Bdd 1 := fun j => by
  show |(((j.val + a) % 3 : ℕ) : ℤ) - 1| ≤ 1
  rw [abs_le]; omega

theorem smErr_bdd (a : ℕ) : (smErr a).Bdd 19 := fun j => by
  show |(((j.val + a) % 39 : ℕ) : ℤ) - 19| ≤ 19
  rw [abs_le]; omega

/-- Samples with every coefficient in range; every party draws its own. -/
def smRand : MainRand smCtx where
  sample k _ := ⟨⟨21, fun i _ => (k : ZMod (smCtx.q i)), true⟩, RPoly.new 2⟩
  sample' k _ := ⟨⟨21, fun i _ => (k : ZMod (smCtx.q i)), true⟩, RPoly.new 2⟩
  party id := ⟨smTern id.length, smErr 1, smTern 2, fun k => smErr k, fun k => smErr (k + 1),
    fun k => smErr (k + 2), fun t k => smErr (t + k), RPoly.new 21, ⟨RPoly.new 21, RPoly.new 2⟩,
    fun _ => RPoly.new 21⟩
  enc t := ⟨smTern t, smErr t, smErr (t + 1)⟩
  ids := Sched.id
  sch _ := Sched.id
  dec _ := Sched.id

/-- Ten records with all features one, of the class `0`. -/
def smData : List (List ℂ) := List.replicate 10 (List.replicate 7 1)

@[inherit_doc smData]
def smLabels : List ℂ := List.replicate 10 0

theorem smOk : SmOk (stdEncoder smCtx) smPar smRand smData smLabels
    ((smCtx.N : ℝ) / (2 * (2 ^ 38 : ℚ)) + flErr 100) 0 where
  scale := rfl
  fl := Fl.double_ok
  crsLen := rfl
  party _ _ := ⟨smTern_bdd _, smErr_bdd _, smTern_bdd _, fun _ => smErr_bdd _, fun _ => smErr_bdd _,
    fun _ => smErr_bdd _, fun _ _ => smErr_bdd _⟩
  encU _ := smTern_bdd _
  encE0 _ := smErr_bdd _
  encE1 _ := smErr_bdd _
  encoder := by
    rw [add_sub_cancel_right]
    exact stdEncoder_accurate (logN := 5) rfl (by norm_num) (by norm_num) _
  eps0 := add_nonneg (by positivity) (flErr_nonneg _)
  eps := by
    show ((32 : ℕ) : ℝ) / (2 * ((2 ^ 38 : ℚ) : ℝ)) + 100 ^ 2 / 2 ^ 47 ≤ 1 / 2 ^ 32
    norm_num
  dataLen := by simp [smData]
  labelLen := by simp [smLabels]
  rowLen i hi := by simp [smData, -List.reduceReplicate, hi]
  dataLe row hr x hx := by
    obtain rfl := List.eq_of_mem_replicate hr
    obtain rfl := List.eq_of_mem_replicate hx
    simp

/-- The plain computation on that data, the same for every feature. -/
def smIter : ℕ → ℚ × ℚ
  | 0 => (0, 0)
  | t + 1 =>
    let x := 7 * (smIter t).2
    let b := (smIter t).2 - 3 / 10 * (-15 / 10000 * x ^ 3 + 15 / 100 * x + 1 / 2 - 1)
    (b, (1 - smHyperQ.eta t) * b + smHyperQ.eta t * (smIter t).1)

theorem smEntry {i j : ℕ} (hi : i < 10) (hj : j < 7) : entry smData i j = 1 := by
  simp [entry, smData, -List.reduceReplicate, hi, hj]

theorem smTrain_eq (t : ℕ) : ∀ c < 7, (plainTrain smCfg smData smLabels t).1 c = ((smIter t).1 : ℂ) ∧
    (plainTrain smCfg smData smLabels t).2 c = ((smIter t).2 : ℂ) := by
  induction t with
  | zero => intro c _; simp [plainTrain, nesterovRun, smIter]
  | succ t ih =>
    intro c hc
    have hg : ∀ c < 7, grad smHyper 7 2 (entry smData) (fun i => target smCfg.isCls (smLabels.getD i 0))
        (plainTrain smCfg smData smLabels t).2 c =
        2 * (sigma3 smHyper (7 * ((smIter t).2 : ℂ)) - 1) := by
      intro c hc
      have hsum : ∀ r ∈ range 2, (sigma3 smHyper (∑ k ∈ range 7, entry smData r k *
          (plainTrain smCfg smData smLabels t).2 k) - target smCfg.isCls (smLabels.getD r 0)) *
            entry smData r c = sigma3 smHyper (7 * ((smIter t).2 : ℂ)) - 1 := by
        intro r hr
        have hr : r < 10 := (mem_range.mp hr).trans (by norm_num)
        rw [smEntry hr hc, mul_one, sum_congr rfl (g := fun _ => ((smIter t).2 : ℂ)) fun k hk => by
          rw [smEntry hr (mem_range.mp hk), one_mul, (ih k (mem_range.mp hk)).2]]
        rw [sum_const, card_range, nsmul_eq_mul]
        simp [target, smLabels, smCfg, -List.reduceReplicate, hr]
      rw [grad, sum_congr rfl hsum, sum_const, card_range, nsmul_eq_mul]
      norm_num
    have hb : ∀ c < 7, (plainTrain smCfg smData smLabels (t + 1)).1 c = ((smIter (t + 1)).1 : ℂ) := by
      intro c hc
      show (plainTrain smCfg smData smLabels t).2 c - smHyper.gamma / smHyper.batchSize *
        grad smHyper 7 2 (entry smData) (fun i => target smCfg.isCls (smLabels.getD i 0))
        (plainTrain smCfg smData smLabels t).2 c = _
      rw [hg c hc, (ih c hc).2, sigma3]
      show ((smIter t).2 : ℂ) - ((3 / 10 : ℚ) : ℂ) / ((2 : ℕ) : ℂ) * (2 *
        (((-15 / 10000 : ℚ) : ℂ) * (7 * ((smIter t).2 : ℂ)) ^ 3 +
          ((15 / 100 : ℚ) : ℂ) * (7 * ((smIter t).2 : ℂ)) + ((1 / 2 : ℚ) : ℂ) - 1)) =
        (((smIter t).2 - 3 / 10 * (-15 / 10000 * (7 * (smIter t).2) ^ 3 + 15 / 100 * (7 * (smIter t).2) +
          1 / 2 - 1) : ℚ) : ℂ)
      push_cast
      ring
    refine ⟨hb c hc, ?_⟩
    show (1 - smHyper.eta t) * (plainTrain smCfg smData smLabels (t + 1)).1 c + smHyper.eta t *
      (plainTrain smCfg smData smLabels t).1 c = (((1 - smHyperQ.eta t) * (smIter (t + 1)).1 +
        smHyperQ.eta t * (smIter t).1 : ℚ) : ℂ)
    rw [hb c hc, (ih c hc).1, smHyper_is.eta]
    push_cast
    ring

set_option maxRecDepth 100000 in
theorem smPredict_val : 3 / 5 ≤ -15 / 10000 * (7 * (smIter 4).1) ^ 3 + 15 / 100 * (7 * (smIter 4).1) +
    1 / 2 := by
  decide +kernel

theorem smPredict_eq : plainPredict smCfg smData smLabels =
    ((-15 / 10000 * (7 * (smIter 4).1) ^ 3 + 15 / 100 * (7 * (smIter 4).1) + 1 / 2 : ℚ) : ℂ) := by
  have hsum : ∑ j ∈ range 7, entry smData 9 j * (plainTrain smCfg smData smLabels 4).1 j =
      7 * ((smIter 4).1 : ℂ) := by
    rw [sum_congr rfl (g := fun _ => ((smIter 4).1 : ℂ)) fun k hk => by
      rw [smEntry (by norm_num) (mem_range.mp hk), one_mul, (smTrain_eq 4 k (mem_range.mp hk)).1]]
    rw [sum_const, card_range, nsmul_eq_mul]
    norm_num
  show sigma3 smHyper (∑ j ∈ range 7, entry smData 9 j * (plainTrain smCfg smData smLabels 4).1 j) = _
  rw [hsum, sigma3]
  show ((-15 / 10000 : ℚ) : ℂ) * (7 * ((smIter 4).1 : ℂ)) ^ 3 +
    ((15 / 100 : ℚ) : ℂ) * (7 * ((smIter 4).1 : ℂ)) + ((1 / 2 : ℚ) : ℂ) = _
  push_cast
  ring

/-- On this data the program counts the test record as correct. -/
example : ∃ out, lrMain (stdEncoder smCtx) smPar 5 smCfg smRand smData smLabels = .ok out ∧
    out.correct = 1 := by
  obtain ⟨out, ho, -, -, hc⟩ := C56_small smOk
  have hre : (plainPredict smCfg smData smLabels).re =
      ((-15 / 10000 * (7 * (smIter 4).1) ^ 3 + 15 / 100 * (7 * (smIter 4).1) + 1 / 2 : ℚ) : ℝ) := by
    rw [smPredict_eq, Complex.ratCast_re]
  have h35 : (3 / 5 : ℝ) ≤ (plainPredict smCfg smData smLabels).re := by
    rw [hre]
    have : ((3 / 5 : ℚ) : ℝ) ≤ _ := Rat.cast_le.mpr smPredict_val
    refine le_trans ?_ this
    norm_num
  refine ⟨out, ho, ?_⟩
  rw [hc (by rw [abs_of_nonneg (by linarith)]; linarith), verdict, if_pos (iff_of_true (by linarith) (by simp [smCfg, smLabels]))]

end MK.Lr
