import Verif.Props.ExCover4
import Verif.Props.EvMulPlain
import Verif.Props.ExCTest
import Verif.Props.SmallToy

/-!
# Concrete instances for `mulRelin`, complex constants, the rotation test and the shipped sets
-/

noncomputable section

namespace MK

/-- C02: a set whose map was filled by hand cannot be copied if it contains "0". -/
example : Go.panics (IDSet.CopyNew IDSet.new ["alice", "0"]) := IDSet.addAll_zero _ (by simp) _

/-- C21: Alice's and Bob's ciphertexts multiplied into one at level 3, which is lowered to 2. -/
example := C21_mulRelin exCtx_good exCtx_fits (prm := exPrm) Ev.new_ok (a := exA) (b := exB) (out := exAB)
  exCtA_wf exCtB_wf exCtAB_wf (by rw [exAB_union]; exact exCtAB_parties) (L := 2) rfl (by decide)
  (exCrs_get (-1) (by decide)) (exHas exAB_union.le) (exRelinFor _) exMax (exRelinBdd _) exBy2 exRev

/-- C23: the same product as the exported function, with another schedule. -/
example : ∃ e1 r1 e2 r2, Ev.new.mulRelin exPrm exA exB exRlkSet exAB exRev = .ok (e1, r1) ∧
    Ev.new.MulRelinHoistedNew exPrm exA exB none none exRlkSet exFwd = .ok (e2, r2) ∧
    r1.ct.Same r2.ct ∧ r1.scale = r2.scale := by
  obtain ⟨e1, r1, h1, -, -, -, -, h⟩ := C23_mulRelin exCtx_good (prm := exPrm) Ev.new_ok Ev.new_ok
    (a := exA) (b := exB) (out := exAB) exCtA_wf exCtB_wf exCtAB_wf
    (by rw [exAB_union]; exact exCtAB_parties) (by decide) (exCrs_get (-1) (by decide))
    (exHas exAB_union.le) (exHas exAB_union.le) exBy2 exRev exFwd
  obtain ⟨e2, r2, h2, h3, h4⟩ := h (by decide)
  exact ⟨e1, r1, e2, r2, h1, h2, h3, h4⟩

/-- The images of `i` modulo the four primes: the squares of the roots of `exNttQ`. -/
def exPsi : (i : ℕ) → ZMod (exCtx.q i)
  | 0 => (4 : ZMod 17)
  | 1 => (9 : ZMod 41)
  | 2 => (27 : ZMod 73)
  | 3 => (22 : ZMod 97)
  | _ + 4 => (1 : ZMod 1)

theorem exImag {q : ℕ} [Fact q.Prime] {ζ : Fin 4 → ZMod q} (hζ : ∀ j, ζ j ^ 4 = -1)
    (hinj : Function.Injective ζ) (j : Fin 4) :
    evalEquiv 4 q ζ hζ hinj (imagUnit 4 (ZMod q)) j = ζ j ^ 2 := by
  show Nega.evalAt (RingHom.id (ZMod q)) (ζ j) (hζ j) (imagUnit 4 (ZMod q)) = _
  rw [Nega.evalAt_apply]
  simp [imagUnit, Fin.sum_univ_four]

theorem exPsi_spec : ∀ i ≤ 3, exCtx.nttQ.equiv i (imagUnit exCtx.N _) =
    fun j => if j.val < exCtx.N / 2 then exPsi i else - exPsi i := by
  intro i hi
  funext j
  match i, hi with
  | 0, _ =>
    exact (exImag (q := 17) (ζ := exRoots 17 2) (by decide) (by decide) j).trans
      ((by decide : ∀ j : Fin 4, exRoots 17 2 j ^ 2 = if j.val < 2 then (4 : ZMod 17) else -4) j)
  | 1, _ =>
    exact (exImag (q := 41) (ζ := exRoots 41 3) (by decide) (by decide) j).trans
      ((by decide : ∀ j : Fin 4, exRoots 41 3 j ^ 2 = if j.val < 2 then (9 : ZMod 41) else -9) j)
  | 2, _ =>
    exact (exImag (q := 73) (ζ := exRoots 73 10) (by decide) (by decide) j).trans
      ((by decide : ∀ j : Fin 4, exRoots 73 10 j ^ 2 = if j.val < 2 then (27 : ZMod 73) else -27) j)
  | 3, _ =>
    exact (exImag (q := 97) (ζ := exRoots 97 33) (by decide) (by decide) j).trans
      ((by decide : ∀ j : Fin 4, exRoots 97 33 j ^ 2 = if j.val < 2 then (22 : ZMod 97) else -22) j)

/-- C16: multiplication by `5/2 - 3i`, with the roots the transform uses, of a ciphertext whose rows
are transforms. -/
example (π : Sched) := C16_complex_partial exCtx_good (prm := { exPrm with psi := exPsi }) Fl.exact_ok
  (ct0 := exA) (out := exA) exCtA_wf exCtA_wf rfl exPsi_spec
  (fun id i => (exCtx.nttQ.equiv i).symm (exA.ct.rowsOf id i))
  (fun _ _ i _ => ((exCtx.nttQ.equiv i).apply_symm_apply _).symm) (5 / 2) (-3) π

end MK

namespace MK.CT

open Lr

/-- C72, rotation: with the keys of lr's `genTestParams` the test of rotations passes for every amount. -/
example {prm : CPar smCtx} (hsc : prm.scale = 2 ^ 38) (hfl : prm.fl.Ok) {sample sample' : ℤ → SwKey smCtx}
    (hlen : ((sample 0) 0).Q.len = smCtx.nQ) (hcrs : prm.crs = setupCRS 5 sample sample')
    {rnd : String → PartyRand smCtx} (hr : ∀ id, (rnd id).Ok 19)
    {d : ℕ → Draw smCtx} (hd : ∀ k, Calm (d k)) (k : ℤ) (π : ℕ → Sched) (πd πo π' : Sched) :
    ∃ kb, Lr.genTestParams 5 (newCRS 5 sample) sample' rnd ["user0", "user1"] = .ok (prm.crs, kb) ∧
      testEvaluatorRot k kb.rtkSet (stdEncoder smCtx) prm 4 kb
        (CEnc.new prm) (CDec.new prm) Ev.new ["user0", "user1"] d π πd πo π' = .ok true := by
  have hs : 0 < prm.scale := by rw [hsc]; norm_num
  have hscR : (prm.scale : ℝ) = 2 ^ 38 := by rw [hsc]; norm_num
  obtain ⟨kb, e1, h1, h2, -, h4, -⟩ := C50_genTestParams smCtx_good smCtx_fits (logN := 5) rfl
    (by norm_num) hfl hs hlen hcrs (B := 19) (D := 2 * 0x80000000080001) (by decide +kernel) (by norm_num)
    (by decide +kernel) (by norm_num) sm_digit (rnd := rnd) ["user0", "user1"] (fun id _ => hr id)
  have K : Keys kb (fun id => (rnd id).s) (fun id => (rnd id).e) ["user0", "user1"] :=
    ⟨h2, fun id hid => by
      obtain ⟨sk, g1, -, g2⟩ := (h1 id hid).sk
      exact ⟨sk, g1, g2⟩, fun id hid => (h1 id hid).pk, by decide⟩
  have R : Ready (stdEncoder smCtx) prm kb (fun id => (rnd id).s) (fun id => (rnd id).e)
      ["user0", "user1"] (CEnc.new prm) (CDec.new prm) Ev.new ["user0", "user1"] d 11
      (smCtx.N / (2 * prm.scale)) 0 (smCtx.N * 39) :=
    ⟨smCtx_good, ⟨5, rfl, by norm_num⟩, hfl, hs, K,
      stdEncoder_accurate (logN := 5) rfl (by norm_num) hs 11, encOk_new prm, rfl, Ev.new_ok,
      fun _ h => h, by simp, fun k id _ j _ => (hd k).noise (hr id) j⟩
  obtain ⟨rrk, a, hrot⟩ := h4.rot
  have hcard : (["user0", "user1"] : List String).toFinset.card = 2 := by decide
  have hη : (((["user0", "user1"] : List String).length + 1 : ℕ) *
        ((smCtx.N : ℝ) / (2 * prm.scale) + smCtx.N * 39 / prm.scale)) +
      rotEta smCtx prm.crs (["user0", "user1"] : List String).toFinset.card (2 * 0x80000000080001) 1 19
        (smCtx.lq - 1) k / prm.scale ≤ 2 ^ 15 / 2 ^ 38 := by
    rw [hcard, sm_N, hscR]
    have := div_le_div_of_nonneg_right (sm_rotEta prm.crs k) (show (0 : ℝ) ≤ 2 ^ 38 by positivity)
    refine (add_le_add_right this _).trans ?_
    simp only [List.length_cons, List.length_nil]
    norm_num
  refine ⟨kb, e1, C72_Rot_pass R (by decide) smCtx_fits k (fun idx h => (hrot k idx h).1)
    (by norm_num) (by norm_num) (by norm_num) (fun idx h => (hrot k idx h).2)
    (sm_digit (smCtx.lq - 1) (by decide)) rfl (by norm_num) ((add_le_add_right hη 3).trans (by norm_num))
    ?_ ?_ π πd πo π'⟩
  · rw [hscR]
    calc (2 * (2 ^ 38 * 11) : ℝ) = ((2 * (2 ^ 38 * 11) : ℕ) : ℝ) := by norm_num
      _ < _ := by exact_mod_cast sm_q.2
  · rw [add_zero]
    refine (mul_le_mul_of_nonneg_left hη (by rw [hscR]; positivity)).trans ?_
    rw [hscR]
    norm_num

/-- The CRS polynomials and samples of a run with `PN14QP439`. -/
def cwSample (k : ℤ) : SwKey tbCtx :=
  fun _ => ⟨⟨6, fun i _ => (k : ZMod (tbCtx.q i)), true⟩, RPoly.new tbCtx.nP⟩

def cwPrm : CPar tbCtx := ⟨newCRS 14 cwSample, 2 ^ 52, Fl.double, fun _ => 0⟩

theorem cwPrm_crs : CrsFor cwPrm.crs [] := ⟨⟨_, rfl, rfl⟩, ⟨_, rfl⟩, by simp⟩

def cwTern (a : ℕ) : Nega tbCtx.N ℤ := ⟨fun j => ((j.val + a) % 3 : ℕ) - 1⟩
def cwErr (a : ℕ) : Nega tbCtx.N ℤ := ⟨fun j => ((j.val + a) % 39 : ℕ) - 19⟩

theorem cwTern_bdd (a : ℕ) : (cwTern a).Bdd 1 := fun j => by
  show |(((j.val + a) % 3 : ℕ) : ℤ) - 1| ≤ 1
  rw [abs_le]; omega

theorem cwErr_bdd (a : ℕ) : (cwErr a).Bdd 19 := fun j => by
  show |(((j.val + a) % 39 : ℕ) : ℤ) - 19| ≤ 19
  rw [abs_le]; omega

/-- Every party draws its own samples. -/
def cwRnd (id : String) : PartyRand tbCtx :=
  ⟨cwTern id.length, cwErr 1, cwTern 2, fun k => cwErr k, fun k => cwErr (k + 1), fun k => cwErr (k + 2),
    fun t k => cwErr (t + k), RPoly.new 6, ⟨RPoly.new 6, RPoly.new tbCtx.nP⟩, fun _ => RPoly.new 6⟩

theorem cwRnd_ok (id : String) : (cwRnd id).Ok 19 := ⟨cwTern_bdd _, cwErr_bdd _, cwTern_bdd _,
  fun _ => cwErr_bdd _, fun _ => cwErr_bdd _, fun _ => cwErr_bdd _, fun _ _ => cwErr_bdd _⟩

/-- `TestCKKS` and `BenchmarkMKCKKS` with four users and `PN14QP439`. -/
example (t0 : TestRand tbCtx) (t : ℕ → TestRand tbCtx) :
    ∃ ok, testCKKS (stdEncoder tbCtx) cwPrm 13 cwRnd cvOrder 4 t0 t = .ok ok :=
  C73_shipped_TestCKKS_PN14 (fun m sc => by simp [stdEncoder]; rfl) rfl Fl.double_ok cwPrm_crs
    (by decide) (fun id _ => cwRnd_ok id) t0 t

example (d : ℕ → ℕ → Draw tbCtx) (π πm : ℕ → ℕ → Sched) (iters : ℕ → ℕ) :
    benchmarkMKCKKS (stdEncoder tbCtx) cwPrm cwRnd cvOrder 4 d π πm iters = .ok () :=
  C73_shipped_Benchmark_PN14 rfl Fl.double_ok cwPrm_crs (by decide) (fun id _ => cwRnd_ok id) d π πm iters

/-- The first test with `PN15QP880`, for other errors and messages. -/
example (π : ℕ → Sched) := C72_shipped_can_fail (prm := cvPrm) rfl cvPrm_crs (order := cvOrder)
  (users := userList 4) (fun id _ => cvRnd_ok id) (by decide) (by decide) (by decide) π

end MK.CT

namespace MK.Lr

attribute [local irreducible] setupCRS

/-- C50: the direct rotations by the amounts of the programs, at ring degree `2^14`. -/
example := C50_direct tbCtx_good tbCtx_fits (by show 16384 = _; norm_num)
  (sample := CT.cwSample) (sample' := CT.cwSample)
  (prm := ⟨setupCRS 14 CT.cwSample CT.cwSample, 2 ^ 52, Fl.double, fun _ => 0⟩) Fl.double_ok
  (by show (0 : ℚ) < 2 ^ 52; norm_num) rfl rfl (by decide +kernel) (B := 19) (by norm_num)
  (by decide +kernel) (by norm_num) CT.tb_digit (rnd := CT.cwRnd) CT.cvOrder (fun id _ => CT.cwRnd_ok id)

/-! ### The toy programs, before their numbers are put in -/

/-- The normalised records of the runs at degrees 512 and 32. -/
def tyData : List (List ℂ) := tyOk.choose
def smtData : List (List ℂ) := smToyOk.choose

theorem tyData_ok : TyOk (stdEncoder tyCtx) tyPar sqrt53 tyRand tyData0 tyData tyLabels
    ((tyCtx.N : ℝ) / (2 * (2 ^ 38 : ℚ)) + flErr 100) 0 := tyOk.choose_spec
theorem smtData_ok : SmToyOk (stdEncoder smCtx) smPar sqrt53 smRand smtData0 smtData smLabels
    ((smCtx.N : ℝ) / (2 * (2 ^ 38 : ℚ)) + flErr 100) 0 := smToyOk.choose_spec

theorem ty_e : ((tyCfg.hp.batchSize : ℕ) : ℝ) = 64 := by show ((64 : ℕ) : ℝ) = 64; norm_num
theorem smt_e : ((smtCfg.numTrain : ℕ) : ℝ) - 1 = 7 := by show ((8 : ℕ) : ℝ) - 1 = 7; norm_num

theorem ty_norm : normalise tyPar.fl sqrt53 tyCfg.hp.batchSize tyCfg.hp.batchSize tyCfg.numFeature
    tyCfg.numData toyCols tyData0 = .ok tyData := by rw [ty_e]; exact tyData_ok.norm
theorem ty_std : ∀ j < tyCfg.numFeature, toyCols j = true →
    flStd tyPar.fl sqrt53 tyData0 tyCfg.hp.batchSize tyCfg.hp.batchSize j ≠ 0 := by
  rw [ty_e]; exact tyData_ok.std
theorem smt_norm : normalise smPar.fl sqrt53 smtCfg.numTrain (smtCfg.numTrain - 1) smtCfg.numFeature
    smtCfg.numData toyCols smtData0 = .ok smtData := by rw [smt_e]; exact smtData_ok.norm
theorem smt_std : ∀ j < smtCfg.numFeature, toyCols j = true →
    flStd smPar.fl sqrt53 smtData0 smtCfg.numTrain (smtCfg.numTrain - 1) j ≠ 0 := by
  rw [smt_e]; exact smtData_ok.std

example := C54_toy_main ty_norm ty_std tyData_ok.main (by show 210 ≤ 256; norm_num)
example {out : ToyOut} (ho : lrToyMain (stdEncoder tyCtx) tyPar sqrt53 9 tyCfg tyRand tyData0 tyLabels = .ok out) :=
  C54_accuracy ty_norm ty_std tyData_ok.main (by show 210 ≤ 256; norm_num) ho
example := C55_mb_toy_main smt_norm smt_std smtData_ok.main
example {out : MbToyOut} (ho : mbToyMain (stdEncoder smCtx) smPar sqrt53 5 smtCfg smRand smtData0 smLabels = .ok out) :=
  C55_accuracy smt_norm smt_std smtData_ok.main ho

/-! ### The numbers bound the values of the runs -/

theorem sm_X : ∀ i j, ‖entry smData i j‖ ≤ ((smNum.X : ℚ) : ℝ) := fun i j =>
  (entry_le (M := 1) zero_le_one smOk.dataLe i j).trans (by show (1 : ℝ) ≤ ((1 : ℚ) : ℝ); norm_num)

example := C56_bounds (ν := smNum) smOk.main (smNum_ok smOk) sm_X
example := C56_accuracy (ν := smNum) smOk.main (smNum_ok smOk) sm_X
example := C61_bounds (ν := smbNum) smMbOk.main (smbNum_ok smMbOk) sm_X
example := C61_accuracy (ν := smbNum) smMbOk.main (smbNum_ok smMbOk) sm_X
example := C56_bounds (ν := tyNum) tyData_ok.main (tyNum_ok tyData_ok) fun i j =>
  (tyData_ok.dataLe i j).trans (by show (5 / 4 : ℝ) ≤ ((5 / 4 : ℚ) : ℝ); norm_num)

end MK.Lr
