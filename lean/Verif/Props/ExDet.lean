import Verif.Props.Det
import Verif.Props.ExToy
import Verif.Props.ExEval

/-!
# Runs meeting the hypotheses of C66: the shipped parameters
-/

noncomputable section

namespace MK.Lr

attribute [local irreducible] setupCRS

/-- Keys of three parties generated in two orders. -/
example : ∃ (order order' : List String) (kb kb' : KeyBag pnCtx), order' = order.reverse ∧
    genTestParams 15 (newCRS 15 exRand.sample) exRand.sample' exRand.party order =
      .ok ((mainPar exPar 15 exRand).crs, kb) ∧
    genTestParams 15 (newCRS 15 exRand.sample) exRand.sample' exRand.party order' =
      .ok ((mainPar exPar 15 exRand).crs, kb') ∧
    ∀ id ∈ companies 3, SameKeys (allRots 15) kb kb' id := by
  have h := exLrOk.main.toRunOk
  obtain ⟨ids, kb, pk, X⟩ := main_keys (h.reorder exFwd exRand.sch exRand.dec) exPar_scale exPar_fl exPar_crs
  obtain ⟨ids', kb', pk', X'⟩ := main_keys (h.reorder exRev exRand.sch exRand.dec) exPar_scale exPar_fl
    exPar_crs
  cases X.ids_eq.symm.trans X'.ids_eq
  refine ⟨_, _, kb, kb', rfl, X.gen, X'.gen, fun id hid => ?_⟩
  obtain ⟨ids0, eid, wid, mid⟩ := IDSet.addAll_spec (companies 3) (zero_notMem_companies _) IDSet.new
    GoMap.empty_wf
  cases eid.symm.trans X.ids_eq
  have hmem : ∀ id, id ∈ GoMap.keys ids ↔ id ∈ companies 3 := by
    intro id
    rw [mid]
    simp [IDSet.new, GoMap.empty, GoMap.keys]
  refine (C66_keys h.good h.crsLen h.q0 h.Bq (fun i hi => h.party i ?_) (fun i hi => h.party i ?_) X.gen
    X'.gen ?_ ?_).2
  · exact (hmem i).mp hi
  · exact (hmem i).mp (List.mem_reverse.mp hi)
  · exact (hmem id).mpr hid
  · exact List.mem_reverse.mpr ((hmem id).mpr hid)

/-- lr.go with three companies. -/
example : ∃ out, ∀ ids sch dec,
    lrMain (stdEncoder pnCtx) exPar 15 lrCfg (exRand.reorder ids sch dec) exData exLabels = .ok out :=
  C66_lr_main exLrOk.main

/-- lr_minibatch.go. -/
example : ∃ out, ∀ ids sch dec,
    mbMain (stdEncoder pnCtx) exPar 15 mbCfg (exRand.reorder ids sch dec) exData exLabels = .ok out :=
  C66_mb_main exMbLrOk.main

/-- lr_toy.go. -/
example : ∃ out, ∀ ids sch dec, lrToyMain (stdEncoder pnCtx) exPar sqrt53 15 toyCfg
    (exRand.reorder ids sch dec) exToyData exToyLabels = .ok out := by
  have hd := exToyData_ok (den := 512) (by norm_num) le_rfl
  obtain ⟨data, e, hz, hn, hle⟩ := hd.normalise (exPnOk 1).fl sqrt53_ok (by norm_num)
  refine C66_toy_main (data := data) ?_ (toy_mainOk (exPnOk 1) hd hn hle) (by show 210 ≤ 2 ^ 14; norm_num)
  rw [← e]
  show normalise exPar.fl sqrt53 512 ((512 : ℕ) : ℝ) 20 2000 toyCols exToyData = _
  norm_num

/-- lr_minibatch_toy.go with four companies. -/
example : ∃ out, ∀ ids sch dec, mbToyMain (stdEncoder pnCtx) exPar sqrt53 15 mbToyCfg
    (exRand.reorder ids sch dec) exToyData exToyLabels = .ok out := by
  have hd := exToyData_ok (den := 511) (by norm_num) (by norm_num)
  obtain ⟨data, e, hz, hn, hle⟩ := hd.normalise (exPnOk 4).fl sqrt53_ok (by norm_num)
  refine C66_mb_toy_main (data := data) ?_ (mbToy_mainOk (exPnOk 4) hd hn hle)
  rw [← e]
  show normalise exPar.fl sqrt53 512 (((512 : ℕ) : ℝ) - 1) 20 2000 toyCols exToyData = _
  norm_num

end MK.Lr
