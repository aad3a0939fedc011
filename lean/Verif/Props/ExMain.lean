import Verif.Props.Shipped

/-!
# Runs of lr.go and lr_minibatch.go meeting the hypotheses of C42, C50, C51 and C52
-/

noncomputable section

namespace MK.Lr

/-- A ternary polynomial. -/
def exTern (a : ℕ) : Nega pnCtx.N ℤ := ⟨fun j => ((j.val + a) % 3 : ℕ) - 1⟩

/-- Coefficients from `-19` to `19`. -/
def exErr (a : ℕ) : Nega pnCtx.N ℤ := ⟨fun j => ((j.val + a) % 39 : ℕ) - 19⟩

theorem exTern_bdd (a : ℕ) : (exTern a).Bdd 1 := fun j => by
  show |(((j.val + a) % 3 : ℕ) : ℤ) - 1| ≤ 1
  rw [abs_le]; omega

theorem exErr_bdd (a : ℕ) : (exErr a).Bdd 19 := fun j => by
  show |(((j.val + a) % 39 : ℕ) : ℤ) - 19| ≤ 19
  rw [abs_le]; omega

/-- Parameters with 53-bit rounding. -/
def exPar : CPar pnCtx := ⟨GoMap.empty, 2 ^ 38, Fl.double, fun _ => 0⟩

/-- Samples with every coefficient in range; every party draws its own. -/
def exRand : MainRand pnCtx where
  sample k _ := ⟨⟨21, fun i _ => (k : ZMod (pnCtx.q i)), true⟩, RPoly.new 2⟩
  sample' k _ := ⟨⟨21, fun i _ => (k : ZMod (pnCtx.q i)), true⟩, RPoly.new 2⟩
  party id := ⟨exTern id.length, exErr 1, exTern 2, fun k => exErr k, fun k => exErr (k + 1),
    fun k => exErr (k + 2), fun t k => exErr (t + k), RPoly.new 21, ⟨RPoly.new 21, RPoly.new 2⟩,
    fun _ => RPoly.new 21⟩
  enc t := ⟨exTern t, exErr t, exErr (t + 1)⟩
  ids := Sched.id
  sch _ := Sched.id
  dec _ := Sched.id

/-- 10000 records of seven features and a label each. -/
def exData : List (List ℂ) := (List.range 10000).map fun i =>
  (List.range 7).map fun j => (((i + j) % 5 : ℕ) : ℂ)

@[inherit_doc exData]
def exLabels : List ℂ := (List.range 10000).map fun i => ((i % 2 : ℕ) : ℂ)

theorem exPnOk (numCompany : ℕ) : PnOk (stdEncoder pnCtx) exPar exRand numCompany 100
    ((pnCtx.N : ℝ) / (2 * (2 ^ 38 : ℚ)) + flErr 100) 0 where
  scale := rfl
  fl := Fl.double_ok
  crsLen := rfl
  party _ _ := ⟨exTern_bdd _, exErr_bdd _, exTern_bdd _, fun _ => exErr_bdd _, fun _ => exErr_bdd _,
    fun _ => exErr_bdd _, fun _ _ => exErr_bdd _⟩
  encU _ := exTern_bdd _
  encE0 _ := exErr_bdd _
  encE1 _ := exErr_bdd _
  encoder := by
    rw [add_sub_cancel_right]
    exact stdEncoder_accurate (logN := 15) rfl (by norm_num) (by norm_num) _

theorem exData_le : ∀ row ∈ exData, ∀ x ∈ row, ‖x‖ ≤ 100 := by
  intro row hrow x hx
  obtain ⟨i, -, rfl⟩ := List.mem_map.mp hrow
  obtain ⟨j, -, rfl⟩ := List.mem_map.mp hx
  rw [Complex.norm_natCast]
  have : (i + j) % 5 < 5 := Nat.mod_lt _ (by norm_num)
  have : (((i + j) % 5 : ℕ) : ℝ) ≤ 100 := by exact_mod_cast (by omega : (i + j) % 5 ≤ 100)
  exact this

theorem exLrOk : LrOk (stdEncoder pnCtx) exPar exRand exData exLabels 100
    ((pnCtx.N : ℝ) / (2 * (2 ^ 38 : ℚ)) + flErr 100) 0 where
  toPnOk := exPnOk 3
  hundred := le_rfl
  dataLen := by simp [exData]
  labelLen := by simp [exLabels]
  rowLen i hi := by simp [exData, hi]
  dataLe := exData_le

theorem exMbLrOk : MbLrOk (stdEncoder pnCtx) exPar exRand exData exLabels 100
    ((pnCtx.N : ℝ) / (2 * (2 ^ 38 : ℚ)) + flErr 100) 0 where
  toPnOk := exPnOk 4
  hundred := le_rfl
  dataLen := by simp [exData]
  labelLen := by simp [exLabels]
  rowLen i hi := by simp [exData, hi]
  dataLe := exData_le

example : ∃ out, mbMain (stdEncoder pnCtx) exPar 15 mbCfg exRand exData exLabels = .ok out ∧
    out.prints.length = 4 ∧ out.result.length = 2 ^ 14 := by
  obtain ⟨out, h1, h2, -, vr, -, -, -, ⟨m, -, h3⟩, -⟩ := C52_shipped exMbLrOk
  refine ⟨out, h1, h2, ?_⟩
  rw [h3, exMbLrOk.encoder.len]

example : ∃ out, lrMain (stdEncoder pnCtx) exPar 15 lrCfg exRand exData exLabels = .ok out ∧
    out.prints.length = 4 ∧ out.result.length = 2 ^ 14 := by
  obtain ⟨out, h1, h2, -, vr, -, -, -, ⟨m, -, h3⟩, -⟩ := C51_shipped exLrOk
  refine ⟨out, h1, h2, ?_⟩
  rw [h3, exLrOk.encoder.len]

attribute [local irreducible] setupCRS in
theorem exPar_scale : (mainPar exPar 15 exRand).scale = exPar.scale := rfl

attribute [local irreducible] setupCRS in
theorem exPar_fl : (mainPar exPar 15 exRand).fl = exPar.fl := rfl

attribute [local irreducible] setupCRS in
theorem exPar_crs : (mainPar exPar 15 exRand).crs = setupCRS 15 exRand.sample exRand.sample' := rfl

/-- The key setup (C50) with these samples, and the hypotheses of C42 on keys and parameters. -/
example : ∃ (ids : IDSet) (kb : KeyBag pnCtx) (pk : PublicKey pnCtx),
    genTestParams 15 (newCRS 15 exRand.sample) exRand.sample' exRand.party
      (exRand.ids.f 0 (GoMap.keys ids)) = .ok ((mainPar exPar 15 exRand).crs, kb) ∧
    kb.pkSet.get "company0" = .ok pk ∧
    Setup (mainPar exPar 15 exRand) (2 ^ 14) (companies 3).toFinset kb.rtkSet kb.rk
      (fun id => (exRand.party id).s) (2 * 0x80000000080001) 1 19 ∧
    (Mach.start kb).Ok (companies 3).toFinset kb.rk ∧
    Chain (mainPar exPar 15 exRand) (1 + 1 / 2 ^ 14) 1206 := by
  obtain ⟨ids, kb, pk, h⟩ := main_keys exLrOk.main.toRunOk exPar_scale exPar_fl exPar_crs
  exact ⟨ids, kb, pk, h.gen, h.pk_eq, h.setup, h.mach, pn_chain exPar_scale⟩

/-- C62 for the hyperparameters of lr.go and two records: the constants `c1/c3`, which is `-100`, and
`-(1-eta[1])*gamma/batchSize*(c0-y)` for `y = 1`. -/
example : ‖(fconst5 Fl.double lrHyper 2).getD 0 0 - -100‖ ≤ 5 / 2 ^ 53 * 100 ∧
    ‖(fconst2 Fl.double lrHyper [1, 0] 1).getD 0 0 -
        -(1 - 1.61803) * 0.3 / 2048 * (0.5 - 1)‖ ≤ 1 / 2 ^ 60 := by
  obtain ⟨-, h2, -, -, h5, -⟩ := C62_consts Fl.double_ok lrHyper 2 1 0 [1, 0]
    (by intro y hy; rcases List.mem_pair.mp hy with rfl | rfl <;> rfl) (by norm_num) rfl
  have e5 : lrHyper.c1 / lrHyper.c3 = -100 := by
    show ((15 / 100 : ℚ) : ℂ) / ((-15 / 10000 : ℚ) : ℂ) = -100
    norm_num
  have en : ∀ q : ℚ, 0 ≤ q → ‖(q : ℂ)‖ = q := fun q hq => by
    have : (q : ℂ) = ((q : ℝ) : ℂ) := by push_cast; rfl
    rw [this, Complex.norm_real, Real.norm_eq_abs, abs_of_nonneg (by exact_mod_cast hq)]
  refine ⟨by rw [e5] at h5; simpa using h5, ?_⟩
  have g : lrHyper.gamma = ((3 / 10 : ℚ) : ℂ) := rfl
  have e : lrHyper.eta 1 = ((161803 / 100000 : ℚ) : ℂ) := rfl
  have c : lrHyper.c0 = ((1 / 2 : ℚ) : ℂ) := rfl
  have b : lrHyper.batchSize = 2048 := rfl
  rw [g, e, c, b, en _ (by norm_num), en _ (by norm_num), en _ (by norm_num)] at h2
  norm_num at h2 ⊢
  exact h2.trans (by norm_num)

end MK.Lr
