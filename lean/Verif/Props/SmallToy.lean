import Verif.Props.ToyNum

/-!
# C61 evaluated for lr_toy.go, with its moduli at ring degree 512

lr_toy.go prints slots up to 210, so it needs at least that many.
-/

noncomputable section

namespace MK

/-- The transform of degree `2^9`. -/
abbrev tyEquiv (q : ℕ) [Fact q.Prime] (ψ : ℕ) (hq : 2 < q) (h : powMod q 10 ψ 512 + 1 = q) :
    Nega 512 (ZMod q) ≃+* Row 512 q := rootEquiv 512 9 q ψ (by norm_num) hq h

/-- The number-theoretic transforms modulo `Q`. -/
def tyNttQ : Ntt 512 pnQ where
  equiv
  | 0 => tyEquiv 0x80000000080001 28716717277117165 (by norm_num) (by decide +kernel)
  | 1 => tyEquiv 0x4000170001 195385106546 (by norm_num) (by decide +kernel)
  | 2 => tyEquiv 0x40002f0001 152466154016 (by norm_num) (by decide +kernel)
  | 3 => tyEquiv 0x3fffe80001 221117310521 (by norm_num) (by decide +kernel)
  | 4 => tyEquiv 0x4000300001 29431042721 (by norm_num) (by decide +kernel)
  | 5 => tyEquiv 0x40003f0001 185527904584 (by norm_num) (by decide +kernel)
  | 6 => tyEquiv 0x3fffcf0001 229652830733 (by norm_num) (by decide +kernel)
  | 7 => tyEquiv 0x4000450001 269296359576 (by norm_num) (by decide +kernel)
  | 8 => tyEquiv 0x3fffc10001 30824343538 (by norm_num) (by decide +kernel)
  | 9 => tyEquiv 0x40004a0001 14684453824 (by norm_num) (by decide +kernel)
  | 10 => tyEquiv 0x3fffb80001 206207986721 (by norm_num) (by decide +kernel)
  | 11 => tyEquiv 0x3fffb70001 141881704645 (by norm_num) (by decide +kernel)
  | 12 => tyEquiv 0x4000510001 116136307554 (by norm_num) (by decide +kernel)
  | 13 => tyEquiv 0x3fffb20001 266803185096 (by norm_num) (by decide +kernel)
  | 14 => tyEquiv 0x4000540001 135689189947 (by norm_num) (by decide +kernel)
  | 15 => tyEquiv 0x3fffaf0001 134483233580 (by norm_num) (by decide +kernel)
  | 16 => tyEquiv 0x4000560001 250200782406 (by norm_num) (by decide +kernel)
  | 17 => tyEquiv 0x4000590001 18824098167 (by norm_num) (by decide +kernel)
  | 18 => tyEquiv 0x3fff810001 39344748770 (by norm_num) (by decide +kernel)
  | 19 => tyEquiv 0x40006b0001 209482679628 (by norm_num) (by decide +kernel)
  | 20 => tyEquiv 0x4000720001 214796394960 (by norm_num) (by decide +kernel)
  | _ + 21 => trivEquiv 512

/-- The number-theoretic transforms modulo `P`. -/
def tyNttP : Ntt 512 pnP where
  equiv
  | 0 => tyEquiv 0x40000001b0001 309059348524646 (by norm_num) (by decide +kernel)
  | 1 => tyEquiv 0x4000000270001 708716729723851 (by norm_num) (by decide +kernel)
  | _ + 2 => trivEquiv 512

/-- The moduli of lr/lr_toy.go (39-54) at ring degree 512. -/
def tyCtx : Ctx where
  N := 512
  q := pnQ
  p := pnP
  nQ := 21
  nP := 2
  gamma := 2
  nttQ := tyNttQ
  nttP := tyNttP
  fv := exactV

theorem tyCtx_good : tyCtx.Good :=
  ⟨pnCtx_good.oddQ, pnCtx_good.oddP, pnCtx_good.posQ, pnCtx_good.posP, pnCtx_good.copQ,
    pnCtx_good.copP, pnCtx_good.copQP, pnCtx_good.nQ_pos, pnCtx_good.alpha_pos⟩

theorem tyCtx_fits : tyCtx.Fits :=
  ⟨exactV_ok, pnCtx_fits.q_lt, pnCtx_fits.p_lt, pnCtx_fits.nP_le⟩

end MK

namespace MK.Lr

open Finset

/-- The hyperparameters of lr/lr_toy.go with a batch of 64, as rational numbers. -/
def tyHyperQ : Hyper ℚ := { smtHyperQ with batchSize := 64 }

theorem tyHyper_is : HyperIs (toyHyper 64) tyHyperQ := ⟨rfl, fun _ => rfl, rfl, rfl, rfl, rfl⟩

/-- lr_toy.go with 256 slots: 64 training records in rows of four, three features, one iteration, one
party; 70 records. -/
def tyCfg : MainCfg where
  hp := toyHyper 64
  slotNum := 256
  numCol := 2 ^ 2
  numRow := 64
  numData := 70
  numFeature := 3
  numIter := 1
  numCompany := 1
  testId := 69
  isCls x := goInt x = 0

instance : NeZero tyCfg.slotNum := ⟨by show 256 ≠ 0; norm_num⟩

theorem ty_chain {prm : CPar tyCtx} (h : prm.scale = 2 ^ 38) : Chain prm (1 + 1 / 2 ^ 14) 1206 := by
  have := pn_chain (prm := ⟨GoMap.empty, 2 ^ 38, prm.fl, fun _ => 0⟩) rfl
  exact ⟨this.one, this.pos, this.pow, by rw [h]; norm_num, by rw [h]; exact this.lo,
    by rw [h]; exact this.hi⟩

theorem ty_digit : digitMax tyCtx (2 * 0x80000000080001) := pn_digit

/-- What a run at degree 512 needs; `data` are the records after normalisation, of at least three
features of at most `5/4` in absolute value. -/
structure TyOk (E : Encoder tyCtx (List ℂ)) (prm0 : CPar tyCtx) (sq : ℝ → ℝ) (rnd : MainRand tyCtx)
    (data0 data : List (List ℂ)) (labels : List ℂ) (ε δ : ℝ) : Prop where
  scale : prm0.scale = 2 ^ 38
  fl : prm0.fl.Ok
  crsLen : ((rnd.sample 0) 0).Q.len = tyCtx.nQ
  party : ∀ id ∈ companies 1, (rnd.party id).Ok 19
  encU : ∀ t, (rnd.enc t).u.Bdd 1
  encE0 : ∀ t, (rnd.enc t).e0.Bdd 19
  encE1 : ∀ t, (rnd.enc t).e1.Bdd 19
  encoder : E.Accurate (2 ^ 38) 256 (100 + flErr 100) (ε - flErr 100) δ
  eps0 : 0 ≤ ε
  eps : ε ≤ 1 / 2 ^ 29
  norm : normalise prm0.fl sq 64 64 3 70 toyCols data0 = .ok data
  std : ∀ j < 3, toyCols j = true → flStd prm0.fl sq data0 64 64 j ≠ 0
  dataLen : 70 ≤ data0.length
  labelLen : 70 ≤ labels.length
  rowLen : ∀ i < 70, 3 ≤ (data0.getD i []).length
  dataLe : ∀ i j, ‖entry data i j‖ ≤ 5 / 4

section

variable {E : Encoder tyCtx (List ℂ)} {prm0 : CPar tyCtx} {sq : ℝ → ℝ} {rnd : MainRand tyCtx}
  {data0 data : List (List ℂ)} {labels : List ℂ} {ε δ : ℝ}

theorem TyOk.main (h : TyOk E prm0 sq rnd data0 data labels ε δ) :
    MainOk E prm0 9 tyCfg rnd data labels (1 + 1 / 2 ^ 14) 1206 (2 * 0x80000000080001) 19
      ((100 : ℚ) : ℝ) ε δ where
  good := tyCtx_good
  fits := tyCtx_fits
  N_eq := rfl
  logN_pos := by norm_num
  slots := rfl
  fl := h.fl
  chain := ty_chain h.scale
  levels := by show 4 * 1 + 4 ≤ 21; norm_num
  drift := by show 15 * (3 ^ 1 - 1) + 6 ≤ 1206; norm_num
  q0 := by show 2 < 0x80000000080001; norm_num
  B0 := by norm_num
  Bq := by show (2 * 19 : ℤ) < ((0x80000000080001 : ℕ) : ℤ); norm_num
  D0 := by norm_num
  digit := ty_digit
  crsLen := h.crsLen
  party := h.party
  encU := h.encU
  encE0 := h.encE0
  encE1 := h.encE1
  encoder := by
    rw [h.scale]
    push_cast
    exact h.encoder
  two := by show 2 ≤ 256; norm_num
  hyper := by push_cast; exact toyHyper_le le_rfl (by norm_num)
  c3 := by show ((-15 / 10000 : ℚ) : ℂ) ≠ 0; norm_num
  company := by show 1 ≤ 1; norm_num
  rows := ⟨6, rfl⟩
  cols := ⟨2, rfl⟩
  shape := by show 256 = 64 * 2 ^ 2; norm_num
  feat := by show 3 ≤ 2 ^ 2; norm_num
  batch := by show 64 ≤ 64; norm_num
  batchData := by show 64 ≤ 70; norm_num
  dataLen := by rw [(normalise_ok h.norm).len]; exact h.dataLen
  labelLen := h.labelLen
  rowLen i hi := by rw [(normalise_ok h.norm).rows]; exact h.rowLen i hi
  dataLe row hr x hx := by
    obtain ⟨i, j, rfl⟩ := entry_of_mem hr hx
    exact (h.dataLe i j).trans (by norm_num)
  testId := by show 69 < 70; norm_num

/-- The numbers of that run. -/
def tyNum : NCfg where
  p := NPar.of tyCtx (2 ^ 38) 1 (2 * 0x80000000080001) 1 19 8
  L := 20
  hp := tyHyperQ
  fe := 1 / 2 ^ 29 + 512 * ((2 * 512 + 1) * 19) / 2 ^ 38
  X := 5 / 4
  M := 100

set_option maxRecDepth 100000 in
theorem tyNum_infer : tyNum.In (tyNum.infer 256 64 4 3 1) ∧ (tyNum.infer 256 64 4 3 1).err ≤ 1 / 10 := by
  decide +kernel

attribute [local irreducible] setupCRS in
theorem tyNum_ok (h : TyOk E prm0 sq rnd data0 data labels ε δ) :
    tyNum.Ok (mainPar prm0 9 rnd) tyCfg.hp (companies tyCfg.numCompany).toFinset.card
      (2 * 0x80000000080001) 1 19 (freshErr tyCtx prm0.scale 19 ε) where
  par := by
    have := NPar.of_ok (c := 1) (D := 2 * 0x80000000080001) (T := 1) (B := 19) tyCtx_good (by norm_num)
      (by norm_num) (by norm_num) (m := 8) (by norm_num) (by show 512 / 2 = 2 ^ 8; norm_num)
      (mainPar prm0 9 rnd)
    have hs : (mainPar prm0 9 rnd).scale = 2 ^ 38 := h.scale
    rw [hs] at this
    have hc : (companies tyCfg.numCompany).toFinset.card = 1 := by
      show (companies 1).toFinset.card = 1
      decide
    rw [hc]
    exact this
  L := rfl
  hyper := tyHyper_is
  fe0 := h.eps0.trans (le_freshErr (by rw [h.scale]; norm_num) (by norm_num) ε)
  fe := by
    have h1 := h.eps
    rw [freshErr, h.scale]
    show ε + ((512 : ℕ) : ℝ) * (((2 * ((512 : ℕ) : ℤ) + 1) * 19 : ℤ) : ℝ) / ((2 ^ 38 : ℚ) : ℝ) ≤
      ((1 / 2 ^ 29 + 512 * ((2 * 512 + 1) * 19) / 2 ^ 38 : ℚ) : ℝ)
    push_cast
    linarith
  pos := by
    have hs : (mainPar prm0 9 rnd).scale = 2 ^ 38 := h.scale
    rw [hs]; norm_num

/-- C61, evaluated at degree 512 for lr_toy.go: whatever the samples, the keys, the map orders and the
data (after normalisation at most 5/4 in absolute value), main succeeds; the prediction for the test
record is within `1/10` of the plain computation, plus the decoding error; the record is judged as by
the plain computation unless that comes this close to 1/2. -/
theorem C61_toy_small (h : TyOk E prm0 sq rnd data0 data labels ε δ) :
    ∃ out, lrToyMain E prm0 sq 9 tyCfg rnd data0 labels = .ok out ∧
      ‖out.result.getD 0 0 - plainPredict tyCfg data labels‖ ≤ 1 / 10 + δ ∧
      (1 / 10 + δ < |(plainPredict tyCfg data labels).re - 1 / 2| →
        out.correct = verdict (plainPredict tyCfg data labels).re (goInt (labels.getD 69 0).re = 0)) := by
  have hX : ∀ i j, ‖entry data i j‖ ≤ ((tyNum.X : ℚ) : ℝ) := by
    intro i j
    refine (h.dataLe i j).trans ?_
    show (5 / 4 : ℝ) ≤ ((5 / 4 : ℚ) : ℝ)
    norm_num
  have e : ((tyCfg.hp.batchSize : ℕ) : ℝ) = 64 := by show ((64 : ℕ) : ℝ) = 64; norm_num
  obtain ⟨i1, i2⟩ := tyNum_infer
  have i3 : (((tyNum.infer 256 64 4 3 1).err : ℚ) : ℝ) ≤ 1 / 10 := by
    have : (((tyNum.infer 256 64 4 3 1).err : ℚ) : ℝ) ≤ ((1 / 10 : ℚ) : ℝ) := by exact_mod_cast i2
    refine this.trans ?_
    norm_num
  obtain ⟨out, ho, r1, r2⟩ := C61_toy_accuracy (sq := sq) (ν := tyNum) (cfg := tyCfg) (data0 := data0)
    (by rw [e]; exact h.norm) (by rw [e]; exact h.std) h.main (by show 210 ≤ 256; norm_num)
    (tyNum_ok h) hX i1
  exact ⟨out, ho, r1.trans (add_le_add_left i3 δ), fun hm => r2 (lt_of_le_of_lt (add_le_add_left i3 δ) hm)⟩

end

/-! ## A run -/

/-- Parameters with 53-bit rounding. -/
def tyPar : CPar tyCtx := ⟨GoMap.empty, 2 ^ 38, Fl.double, fun _ => 0⟩

/-- A ternary polynomial. -/
def tyTern (a : ℕ) : Nega tyCtx.N ℤ := ⟨fun j => ((j.val + a) % 3 : ℕ) - 1⟩

/-- Coefficients from `-19` to `19`. -/
def tyErr (a : ℕ) : Nega tyCtx.N ℤ := ⟨fun j => ((j.val + a) % 39 : ℕ) - 19⟩

theorem tyTern_bdd (a : ℕ) : (tyTern a).Bdd 1 := fun j => by
  show |(((j.val + a) % 3 : ℕ) : ℤ) - 1| ≤ 1
  rw [abs_le]; omega

theorem tyErr_bdd (a : ℕ) : (tyErr a).Bdd 19 := fun j => by
  show |(((j.val + a) % 39 : ℕ) : ℤ) - 19| ≤ 19
  rw [abs_le]; omega

/-- Samples with every coefficient in range; every party draws its own. -/
def tyRand : MainRand tyCtx where
  sample k _ := ⟨⟨21, fun i _ => (k : ZMod (tyCtx.q i)), true⟩, RPoly.new 2⟩
  sample' k _ := ⟨⟨21, fun i _ => (k : ZMod (tyCtx.q i)), true⟩, RPoly.new 2⟩
  party id := ⟨tyTern id.length, tyErr 1, tyTern 2, fun k => tyErr k, fun k => tyErr (k + 1),
    fun k => tyErr (k + 2), fun t k => tyErr (t + k), RPoly.new 21, ⟨RPoly.new 21, RPoly.new 2⟩,
    fun _ => RPoly.new 21⟩
  enc t := ⟨tyTern t, tyErr t, tyErr (t + 1)⟩
  ids := Sched.id
  sch _ := Sched.id
  dec _ := Sched.id

/-- Seventy records that alternate between two values. -/
def tyData0 : List (List ℂ) := (List.range 70).map fun i => List.replicate 3 (if i % 2 = 0 then 1 else -1)

/-- Records with features one are of class zero. -/
def tyLabels : List ℂ := (List.range 70).map fun i => if i % 2 = 0 then 0 else 1

theorem tyEntry {i j : ℕ} (hi : i < 70) (hj : j < 3) :
    entry tyData0 i j = if i % 2 = 0 then 1 else -1 := by
  have h1 : i < tyData0.length := by simp [tyData0]; omega
  rw [entry, List.getD_eq_getElem _ _ h1]
  simp only [tyData0, List.getElem_map, List.getElem_range]
  rw [List.getD_eq_getElem _ _ (by simpa using hj), List.getElem_replicate]

theorem ty_alt (n : ℕ) : ∑ i ∈ range (2 * n), (if i % 2 = 0 then (1 : ℝ) else -1) = 0 := by
  induction n with
  | zero => simp
  | succ n ih =>
    rw [show 2 * (n + 1) = 2 * n + 1 + 1 by ring, sum_range_succ, sum_range_succ, ih]
    simp [Nat.add_mod]

/-- The normalised records exist and meet the requirements. -/
theorem tyOk : ∃ data, TyOk (stdEncoder tyCtx) tyPar sqrt53 tyRand tyData0 data tyLabels
    ((tyCtx.N : ℝ) / (2 * (2 ^ 38 : ℚ)) + flErr 100) 0 := by
  have hl : tyData0.length = 70 := by simp [tyData0]
  have hrow : ∀ i < 70, (tyData0.getD i []).length = 3 := by
    intro i hi
    rw [List.getD_eq_getElem _ _ (by omega)]
    simp [tyData0]
  have hre : ∀ i < 70, ∀ j < 3, (entry tyData0 i j).re = if i % 2 = 0 then 1 else -1 := by
    intro i hi j hj
    rw [tyEntry hi hj]
    split_ifs <;> simp
  have hmean : ∀ j < 3, colMean tyData0 64 j = 0 := by
    intro j hj
    rw [colMean, sum_congr rfl fun i hi => hre i (by have := mem_range.mp hi; omega) j hj,
      ty_alt 32, zero_div]
  have hvar : ∀ j < 3, colVar tyData0 64 64 j = 1 := by
    intro j hj
    rw [colVar, hmean j hj, sum_congr rfl (g := fun _ => (1 : ℝ)) fun i hi => by
      rw [hre i (by have := mem_range.mp hi; omega) j hj]
      split_ifs <;> norm_num]
    norm_num
  have hin : ∀ i j, i < 64 ∨ i < 70 → j < 3 → |(entry tyData0 i j).re| ≤ 1 := by
    intro i j hi hj
    rw [hre i (by omega) j hj]
    split_ifs <;> norm_num
  have hr : ∀ i < 70, ∀ j < 3, i < tyData0.length ∧ j < (tyData0.getD i []).length := fun i hi j hj =>
    ⟨by omega, by rw [hrow i hi]; exact hj⟩
  obtain ⟨data, e, hz, h⟩ := C63_normalise Fl.double_ok sqrt53_ok (pop := 64) (den := 64) (numFeature := 3)
    (numData := 70) (sel := toyCols) (data := tyData0) (κ := 1) (fun i hi j hj => hr i (by omega) j hj)
    (fun i hi j hj _ => hr i hi j hj) (by norm_num) (by norm_num) le_rfl (by norm_num)
    (fun j hj _ => ⟨0, by norm_num, 1, by norm_num, by
      rw [hre 0 (by norm_num) j hj, hre 1 (by norm_num) j hj]
      norm_num⟩)
    (fun i hi j hj _ => by
      rw [hvar j hj, Real.sqrt_one, one_mul]
      exact hin i j hi hj)
  refine ⟨data,
    { scale := rfl
      fl := Fl.double_ok
      crsLen := rfl
      party := fun _ _ => ⟨tyTern_bdd _, tyErr_bdd _, tyTern_bdd _, fun _ => tyErr_bdd _,
        fun _ => tyErr_bdd _, fun _ => tyErr_bdd _, fun _ _ => tyErr_bdd _⟩
      encU := fun _ => tyTern_bdd _
      encE0 := fun _ => tyErr_bdd _
      encE1 := fun _ => tyErr_bdd _
      encoder := by
        rw [add_sub_cancel_right]
        exact stdEncoder_accurate (logN := 9) rfl (by norm_num) (by norm_num) _
      eps0 := add_nonneg (by positivity) (flErr_nonneg _)
      eps := by
        show ((512 : ℕ) : ℝ) / (2 * ((2 ^ 38 : ℚ) : ℝ)) + 100 ^ 2 / 2 ^ 47 ≤ 1 / 2 ^ 29
        norm_num
      norm := e
      std := fun j hj hj' => hz j hj hj' _ (meanStd_spec _ _ _ fun i hi => hr i (by omega) j hj)
      dataLen := by rw [hl]
      labelLen := by simp [tyLabels]
      rowLen := fun i hi => (hrow i hi).ge
      dataLe := fun i j => ?_ }⟩
  by_cases hc : i < 70 ∧ j < 3 ∧ toyCols j = true
  · have h2 := h.vals i hc.1 j hc.2.1 hc.2.2
    have hre' : entry data i j = ((entry data i j).re : ℂ) := Complex.ext rfl (by
      rw [h.real i hc.1 j hc.2.1 hc.2.2, Complex.ofReal_im])
    rw [hmean j hc.2.1, hvar j hc.2.1, Real.sqrt_one, div_one, sub_zero] at h2
    rw [hre', Complex.norm_real, Real.norm_eq_abs]
    have h3 := abs_sub_abs_le_abs_sub (entry data i j).re (entry tyData0 i j).re
    have h4 := hin i j (.inr hc.1) hc.2.1
    norm_num at h2
    linarith
  · rw [h.keep i j hc]
    by_cases hi : i < 70
    · by_cases hj : j < 3
      · rw [tyEntry hi hj]; split_ifs <;> norm_num
      · rw [entry, List.getD_eq_default _ _ (by rw [hrow i hi]; omega)]; norm_num
    · rw [entry, List.getD_eq_default tyData0 _ (by omega)]; norm_num

/-- A run of lr_toy.go at degree 512: its result is near the plain prediction. -/
example : ∃ data out, normalise Fl.double sqrt53 64 64 3 70 toyCols tyData0 = .ok data ∧
    lrToyMain (stdEncoder tyCtx) tyPar sqrt53 9 tyCfg tyRand tyData0 tyLabels = .ok out ∧
    ‖out.result.getD 0 0 - plainPredict tyCfg data tyLabels‖ ≤ 1 / 10 := by
  obtain ⟨data, h⟩ := tyOk
  obtain ⟨out, ho, hr, -⟩ := C61_toy_small h
  exact ⟨data, out, h.norm, ho, hr.trans (by norm_num)⟩

end MK.Lr
