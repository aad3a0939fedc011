import Verif.Props.ExCover3
import Verif.Props.LrRun
import Verif.Props.IeeeMain

/-!
# Concrete instances for the training on ciphertexts (C42) and for the accuracy statements (C51–C67)
-/

noncomputable section

namespace MK.Lr

attribute [local irreducible] setupCRS

/-! ### Training on ciphertexts, without the programs -/

/-- Sixteen numbers below one. -/
def cvVec : List ℂ := (List.range 16).map fun i => ((i : ℕ) : ℂ) / 16

theorem cvVec_len : cvVec.length = 16 := by simp [cvVec]

theorem cvVec_le : ∀ x ∈ cvVec, ‖x‖ ≤ ((100 : ℚ) : ℝ) := by
  intro x hx
  obtain ⟨i, hi, rfl⟩ := List.mem_map.mp hx
  have hi' : ((i : ℕ) : ℝ) ≤ 16 := by exact_mod_cast (List.mem_range.mp hi).le
  rw [norm_div, Complex.norm_natCast]
  norm_num
  linarith

/-- Labels of the first row one, of the second zero. -/
def cvLab : List ℂ := List.replicate 8 1 ++ List.replicate 8 0

theorem cvLab_len : cvLab.length = 16 := by simp [cvLab]

theorem cvLab_01 : ∀ y ∈ cvLab, y = 0 ∨ y = 1 := by
  intro y hy
  rcases List.mem_append.mp hy with h | h
  · exact Or.inr (List.eq_of_mem_replicate h)
  · exact Or.inl (List.eq_of_mem_replicate h)

/-- The parameters after `genTestParams`. -/
abbrev cvMain : CPar smCtx := mainPar smPar 5 smRand

abbrev cvS' : String → Nega smCtx.N ℤ := fun id => (smRand.party id).s

abbrev cvEta : ℝ := freshErr smCtx cvMain.scale 19 ((smCtx.N : ℝ) / (2 * (2 ^ 38 : ℚ)) + flErr 100)

/-- Keys of three companies and encryptions of `cvVec`: everything C42 asks for, at degree 32 and
with the moduli of the programs. -/
theorem cv_inputs : ∃ (kb : KeyBag smCtx) (k : Consts (CCt smCtx) (RQ smCtx × ℚ))
    (d : Data (CCt smCtx) (RQ smCtx × ℚ)) (beta v test : CCt smCtx),
    Setup cvMain 16 (companies 3).toFinset kb.rtkSet kb.rk cvS' (2 * 0x80000000080001) 1 19 ∧
    Chain cvMain (1 + 1 / 2 ^ 14) 1206 ∧ (Mach.start kb).Ok (companies 3).toFinset kb.rk ∧
    ConstsRel (Fresh cvMain cvS' (companies 3).toFinset cvEta) (Encodes cvMain cvEta) k
      (constSlots 16 8 smHyper) ∧
    DataRel (Fresh cvMain cvS' (companies 3).toFinset cvEta) (Encodes cvMain cvEta) d
      (dataSlots 16 smHyper cvVec cvLab) ∧
    Fresh cvMain cvS' (companies 3).toFinset cvEta beta (0 : Slots 16 ℂ) ∧
    Fresh cvMain cvS' (companies 3).toFinset cvEta v (0 : Slots 16 ℂ) ∧
    Fresh cvMain cvS' (companies 3).toFinset cvEta test (toSlots 16 cvVec) := by
  have h := smOk.main
  obtain ⟨ids, kb, pk, X⟩ := main_keys h.toRunOk (prm := cvMain) rfl rfl rfl
  have rl : (List.replicate 16 (0 : ℂ)).length = 16 := by simp
  have rz : ∀ x ∈ List.replicate 16 (0 : ℂ), ‖x‖ ≤ ((100 : ℚ) : ℝ) := by
    intro x hx
    rw [List.eq_of_mem_replicate hx]; simp
  have tz : toSlots 16 (List.replicate 16 (0 : ℂ)) = 0 := by
    funext i; rw [toSlots_replicate]; rfl
  obtain ⟨e1, beta, q1, o1, f1⟩ := X.enc1 (enc := CEnc.new cvMain) ⟨rfl, rfl⟩ 0 _ rl rz
  obtain ⟨e2, v, q2, o2, f2⟩ := X.enc1 o1 1 _ rl rz
  obtain ⟨e3, zc, q3, o3, f3⟩ := X.encAll o2 1 2 cvVec cvVec_len cvVec_le
  obtain ⟨e4, c5, q4, o4, f4⟩ := X.enc1' o3 3 _ _ (h.hyper.near5 X.fl)
  obtain ⟨e5, c9, q5, o5, f5⟩ := X.enc1' o4 4 _ _ (h.hyper.near9 X.fl)
  obtain ⟨e6, ct, q6, -, f6⟩ := X.encAll o5 2 5 cvVec cvVec_len cvVec_le
  have f1 : Fresh cvMain cvS' (companies 3).toFinset cvEta beta
    (toSlots 16 (List.replicate 16 (0 : ℂ))) := f1
  have f2 : Fresh cvMain cvS' (companies 3).toFinset cvEta v
    (toSlots 16 (List.replicate 16 (0 : ℂ))) := f2
  rw [tz] at f1 f2
  exact ⟨kb, _, _, beta, v, ct, X.setup, sm_chain rfl, X.mach, X.consts h.hyper 8 f4 f5,
    X.data h.hyper f3 cvLab_len cvLab_01, f1, f2, f6⟩

/-- Three iterations of the training. -/
example : ∃ (kb : KeyBag smCtx) (k : Consts (CCt smCtx) (RQ smCtx × ℚ))
    (d : Data (CCt smCtx) (RQ smCtx × ℚ)) (beta v : CCt smCtx), ∀ sch : ℕ → Sched,
    ∃ beta' v' m' vb vv,
      lrTrain (realHE cvMain kb.rtkSet sch) k 2 8 d 3 beta v (Mach.start kb) = .ok ((beta', v'), m') ∧
      beta'.ct.Wf 8 false ∧ Shows cvS' (companies 3).toFinset beta' vb ∧
      Shows cvS' (companies 3).toFinset v' vv ∧
      (vb.x, vv.x) = (lrTrain (slotsHE 16 ℂ) (constSlots 16 8 smHyper) 2 8
        (dataSlots 16 smHyper cvVec cvLab) 3 0 0 : Id _) := by
  obtain ⟨kb, k, d, beta, v, test, hS, hC, hm, hk, hd, hb, hv, -⟩ := cv_inputs
  refine ⟨kb, k, d, beta, v, fun sch => ?_⟩
  obtain ⟨beta', v', m', vb, vv, h1, -, h3, -, -, h6, h7, h8⟩ := C42_training hS hC (numIter := 3)
    (by show 4 * 3 + 1 ≤ 21; norm_num) (by norm_num) hk 2 8 hd hb hv sch hm
  exact ⟨beta', v', m', vb, vv, h1, h3, h6, h7, h8⟩

/-- Four iterations and the inference end at level one. -/
example : ∃ (kb : KeyBag smCtx) (k : Consts (CCt smCtx) (RQ smCtx × ℚ))
    (d : Data (CCt smCtx) (RQ smCtx × ℚ)) (beta v test : CCt smCtx), ∀ sch : ℕ → Sched,
    ∃ out m' vr, (do
        let (beta', _) ← lrTrain (realHE cvMain kb.rtkSet sch) k 2 8 d 4 beta v
        infer (realHE cvMain kb.rtkSet sch) k 7 test beta') (Mach.start kb) = .ok (out, m') ∧
      out.ct.Wf 1 false ∧ Shows cvS' (companies 3).toFinset out vr ∧
      vr.x = (infer (slotsHE 16 ℂ) (constSlots 16 8 smHyper) 7 (toSlots 16 cvVec)
        (lrTrain (slotsHE 16 ℂ) (constSlots 16 8 smHyper) 2 8
          (dataSlots 16 smHyper cvVec cvLab) 4 0 0 : Id _).1 : Id _) := by
  obtain ⟨kb, k, d, beta, v, test, hS, hC, hm, hk, hd, hb, hv, ht⟩ := cv_inputs
  refine ⟨kb, k, d, beta, v, test, fun sch => ?_⟩
  obtain ⟨out, m', vb, vv, vr, h1, -, h3, -, -, h6, h7⟩ := C42_training_inference hS hC (numIter := 4)
    (by show 4 * 4 + 4 ≤ 21; norm_num) (by norm_num) hk 2 8 7 hd hb hv ht sch hm
  exact ⟨out, m', vr, h1, h3, h6, h7⟩

/-- Mini-batches: three batches of two ciphertexts, two iterations. -/
example : ∃ (kb : KeyBag smCtx) (k : Consts (CCt smCtx) (RQ smCtx × ℚ))
    (d : Data (CCt smCtx) (RQ smCtx × ℚ)) (beta v test : CCt smCtx), ∀ sch : ℕ → Sched,
    ∃ beta' v' m₁ out m₂, ∃ vb vv vr : AVal 16,
      mbTrain (realHE cvMain kb.rtkSet sch) k 2 8 3 2 (fun _ _ => d) (fun _ => (beta, v)) 2 beta v
        (Mach.start kb) = .ok ((beta', v'), m₁) ∧
      infer (realHE cvMain kb.rtkSet sch) k 7 test beta' m₁ = .ok (out, m₂) ∧
      Shows cvS' (companies 3).toFinset out vr ∧
      (vb.x, vv.x) = (mbTrain (slotsHE 16 ℂ) (constSlots 16 8 smHyper) 2 8 3 2
        (fun _ _ => dataSlots 16 smHyper cvVec cvLab) (fun _ => (0, 0)) 2 0 0 : Id _) ∧
      vr.x = (infer (slotsHE 16 ℂ) (constSlots 16 8 smHyper) 7 (toSlots 16 cvVec) vb.x : Id _) := by
  obtain ⟨kb, k, d, beta, v, test, hS, hC, hm, hk, hd, hb, hv, ht⟩ := cv_inputs
  refine ⟨kb, k, d, beta, v, test, fun sch => ?_⟩
  obtain ⟨beta', v', m₁, out, m₂, vb, vv, vr, h1, h2, -, -, -, -, -, -, -, -, -, h3, h4, h5⟩ :=
    C42_minibatch hS hC (numIter := 2)
    (by show 4 * 2 + 4 ≤ 21; norm_num) (by norm_num) hk 2 8 7 3 (numCt := 2) (by norm_num)
    (d := fun _ _ => d) (dx := fun _ _ => _) (fun _ _ => hd) (zero := fun _ => (beta, v))
    (fun _ => ⟨hb, hv⟩) hb hv ht sch hm
  exact ⟨beta', v', m₁, out, m₂, vb, vv, vr, h1, h2, h3, h4, h5⟩

/-! ### The programs at degree 32 -/

example := C51_lr_main smOk.main
example {out : MainOut} (ho : lrMain (stdEncoder smCtx) smPar 5 smCfg smRand smData smLabels = .ok out) :=
  C51_accuracy smOk.main ho
example := C52_mb_main smMbOk.main
example {out : MainOut} (ho : mbMain (stdEncoder smCtx) smPar 5 smbCfg smRand smData smLabels = .ok out) :=
  C52_accuracy smMbOk.main ho

/-- Double precision at degree 32. -/
def siePar : CPar smCtx := smPar.withFl Fl.ieee

theorem sieOk : SmOk (stdEncoder smCtx) siePar.ideal smRand smData smLabels
    ((smCtx.N : ℝ) / (2 * (2 ^ 38 : ℚ)) + flErr 100) 0 :=
  { smOk with fl := Fl.ieee_ok.total_ok }

theorem smHyper_range : HyperRange smHyper := by
  refine hyper_range (g := 3 / 10) (c1 := 15 / 100) (c3 := -15 / 10000) (c0 := 1 / 2) (eta := lrEta)
    rfl rfl rfl rfl ?_ ?_ ?_ ?_ ?_ ?_ ?_ ?_
  · rintro (_ | _ | _ | _ | t) <;> rfl
  all_goals try (norm_num [abs_of_pos, abs_of_neg]; done)
  · rintro (_ | _ | _ | _ | t) <;> simp only [lrEta] <;> norm_num [abs_of_pos, abs_of_neg]
  · exact ⟨by show 1 ≤ 2; norm_num, by show 2 ≤ 2 ^ 53; norm_num⟩

theorem smQ_le : ∀ i < smCtx.nQ, smCtx.q i ≤ 2 ^ 64 := pnQ_le

/-- lr.go at degree 32 on double precision: whatever it prints and returns is within the bounds of
C56 of the plain training, in every iteration order. -/
example (ids : Sched) (sch dec : ℕ → Sched) : ∃ out,
    lrMain (stdEncoder smCtx) siePar 5 smCfg (smRand.reorder ids sch dec) smData smLabels = .ok out ∧
    ‖out.result.getD 0 0 - plainPredict smCfg smData smLabels‖ ≤ 14 / 1000 := by
  obtain ⟨out, e, hr⟩ := C67_lr_main (prm0 := siePar) Fl.ieee_ok smQ_le
    (by show (2 ^ 38 : ℚ) ≤ 2 ^ 64; norm_num) smHyper_range sieOk.main
  obtain ⟨out', e', -, h, -⟩ := C56_small sieOk
  cases e.symm.trans e'
  exact ⟨out, hr ids sch dec, by simpa using h⟩

example {out : MainOut} (ho : lrMain (stdEncoder smCtx) siePar 5 smCfg smRand smData smLabels = .ok out) :=
  C67_accuracy (prm0 := siePar) Fl.ieee_ok smQ_le
    (by show (2 ^ 38 : ℚ) ≤ 2 ^ 64; norm_num) smHyper_range sieOk.main ho

end MK.Lr
