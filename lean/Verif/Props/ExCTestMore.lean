import Verif.Props.CTestMore
import Verif.Props.ExCTest

/-!
# C72 on parameters: hoisted product and rotation, plaintext product, rescaling

The moduli of lr.go at ring degree 32, as in `ExCTest`.
-/

noncomputable section

namespace MK.CT

open Finset Lr

theorem sm_q18 : (2 * (2 ^ 39 * 11) : ℕ) < smCtx.qProd 18 := by decide +kernel

theorem sm_q19 : smCtx.q (smCtx.lq - 1) = 0x40006b0001 := by decide +kernel

theorem sm_by19 : RescaleBy Fl.exact smCtx.q (2 ^ 38) (2 ^ 38 * 2 ^ 38) (smCtx.lq - 1) 1 := by
  refine Or.inr ⟨by norm_num, by norm_num, by decide, ?_⟩
  refine ⟨by decide, fun m hm => ?_, ?_⟩
  · rw [C17_scale_exact, show m = 0 by omega]
    norm_num [prod_range_succ, smCtx, pnQ, Ctx.lq]
  · rw [C17_scale_exact]
    norm_num [prod_range_succ, smCtx, pnQ, Ctx.lq]

theorem sm_prodScale {prm : CPar smCtx} (hsc : prm.scale = 2 ^ 38) (hfl : prm.fl = Fl.exact) :
    prodScale prm.fl smCtx.q (smCtx.lq - 1) prm.scale prm.scale = 2 ^ 76 / 0x40006b0001 := by
  rw [hfl, hsc]
  unfold prodScale
  rw [C17_scale_exact]
  norm_num [prod_range_succ, smCtx, pnQ, Ctx.lq, Fl.exact]

theorem sm_mulEta19 : mulEta smCtx 2 (2 * 0x80000000080001) 1 19 (smCtx.lq - 1) ≤ 2 ^ 50 := by
  have h1 : (32 * mulNoise smCtx 19 2 2 (2 * 0x80000000080001) (2 * 0x80000000080001)
      (2 * 0x80000000080001) 1 19 : ℤ) ≤ 2 ^ 49 * smCtx.P := by decide +kernel
  have h2 : (32 * rescaleErr smCtx 19 1 2 1 : ℤ) ≤ 2 ^ 49 := by decide +kernel
  have hP : (0 : ℝ) < smCtx.P := by exact_mod_cast smCtx_good.P_pos
  unfold mulEta
  rw [sm_N]
  have h1' : ((32 : ℝ) * (mulNoise smCtx 19 2 2 (2 * 0x80000000080001) (2 * 0x80000000080001)
      (2 * 0x80000000080001) 1 19 : ℤ)) / smCtx.P ≤ 2 ^ 49 := by
    rw [div_le_iff₀ hP]; exact_mod_cast h1
  have h2' : (32 : ℝ) * (rescaleErr smCtx 19 1 2 1 : ℤ) ≤ 2 ^ 49 := by exact_mod_cast h2
  exact (add_le_add h1' h2').trans (by norm_num)

/-- C72, the hoisted product with two users. -/
example {prm : CPar smCtx} (hsc : prm.scale = 2 ^ 38) (hfl : prm.fl = Fl.exact) (hcrs : CrsFor prm.crs [])
    {rnd : String → PartyRand smCtx} (hr : ∀ id, (rnd id).Ok 19)
    {d : ℕ → Draw smCtx} (hd : ∀ k, Calm (d k)) (π : ℕ → Sched) (πd πh πo π' : Sched) :
    ∃ kb, genTestParams prm.crs rnd ["user0", "user1"] = .ok kb ∧
      testEvaluatorMulHoisted (stdEncoder smCtx) prm 4 kb (CEnc.new prm) (CDec.new prm) Ev.new
        ["user0", "user1"] d π πd πh πo π' = .ok true := by
  have hs : 0 < prm.scale := by rw [hsc]; norm_num
  have hscR : (prm.scale : ℝ) = 2 ^ 38 := by rw [hsc]; norm_num
  obtain ⟨kb, e1, h1, h2, R⟩ := ready smCtx_good (logN := 5) rfl (by norm_num) (hfl ▸ Fl.exact_ok) hs
    (by decide +kernel) (by decide +kernel) hcrs (users := ["user0", "user1"]) (fun id _ => hr id)
    (by simp) (by decide) hd 11
  obtain ⟨a, u, hu, k1, k2, k3⟩ := genTestParams_relin hcrs (fun id _ => hr id) h1 h2
  have hsc' : ((2 ^ 76 / 0x40006b0001 : ℚ) : ℝ) = 2 ^ 76 / 0x40006b0001 := by push_cast; rfl
  have hcard : (["user0", "user1"] : List String).toFinset.card = 2 := by decide
  have hη : prodErr 3 3 (((["user0", "user1"] : List String).length + 1 : ℕ) *
        ((smCtx.N : ℝ) / (2 * prm.scale) + smCtx.N * 39 / prm.scale))
      (((["user0", "user1"] : List String).length + 1 : ℕ) *
        ((smCtx.N : ℝ) / (2 * prm.scale) + smCtx.N * 39 / prm.scale))
      (mulEta smCtx (["user0", "user1"] : List String).toFinset.card (2 * 0x80000000080001) 1 19
        (smCtx.lq - 1))
      (smCtx.q (smCtx.lq - 1)) prm.scale prm.scale (2 ^ 76 / 0x40006b0001) ≤ 2 ^ 15 / 2 ^ 38 := by
    unfold prodErr
    rw [hcard, sm_N, hscR, hsc', sm_q19]
    have h1 : ((0x40006b0001 : ℕ) : ℝ) * (2 ^ 76 / 0x40006b0001) = 2 ^ 76 := by norm_num
    rw [h1]
    have := div_le_div_of_nonneg_right sm_mulEta19 (show (0 : ℝ) ≤ 2 ^ 76 by positivity)
    refine (add_le_add_right this _).trans ?_
    simp only [List.length_cons, List.length_nil]
    norm_num
  refine ⟨kb, e1, C72_MulHoisted_pass R (by decide) smCtx_fits hu k1 k2 (by norm_num) (by norm_num)
    (by norm_num) sm_digit k3 (by rw [hfl, hsc]; exact sm_by19) (sm_prodScale hsc hfl).symm rfl
    (by norm_num) ((add_le_add_right hη 9).trans (by norm_num)) ?_ ?_ π πd πh πo π'⟩
  · calc (2 * (((2 ^ 76 / 0x40006b0001 : ℚ) : ℝ) * 11) : ℝ) ≤ ((2 * (2 ^ 39 * 11) : ℕ) : ℝ) := by
          rw [hsc']; norm_num
      _ < _ := by exact_mod_cast sm_q18
  · rw [add_zero]
    refine (mul_le_mul_of_nonneg_left hη (by rw [hscR]; positivity)).trans ?_
    rw [hscR]
    norm_num

/-- C72, the product with a plaintext and two users. -/
example {prm : CPar smCtx} (hsc : prm.scale = 2 ^ 38) (hfl : prm.fl = Fl.exact) (hcrs : CrsFor prm.crs [])
    {rnd : String → PartyRand smCtx} (hr : ∀ id, (rnd id).Ok 19)
    {d : ℕ → Draw smCtx} (hd : ∀ k, Calm (d k)) (π : ℕ → Sched) (πd πo π' : Sched) :
    ∃ kb, genTestParams prm.crs rnd ["user0", "user1"] = .ok kb ∧
      testEvaluatorMulPtxt (stdEncoder smCtx) prm 4 kb (CEnc.new prm) (CDec.new prm) Ev.new
        ["user0", "user1"] d π πd πo π' = .ok true := by
  have hs : 0 < prm.scale := by rw [hsc]; norm_num
  have hscR : (prm.scale : ℝ) = 2 ^ 38 := by rw [hsc]; norm_num
  obtain ⟨kb, e1, -, -, R⟩ := ready smCtx_good (logN := 5) rfl (by norm_num) (hfl ▸ Fl.exact_ok) hs
    (by decide +kernel) (by decide +kernel) hcrs (users := ["user0", "user1"]) (fun id _ => hr id)
    (by simp) (by decide) hd 11
  have hsc' : ((2 ^ 76 / 0x40006b0001 : ℚ) : ℝ) = 2 ^ 76 / 0x40006b0001 := by push_cast; rfl
  have hcard : (["user0", "user1"] : List String).toFinset.card = 2 := by decide
  have h2 : rescaleErr smCtx (smCtx.lq - 1) 1 2 1 ≤ 2 ^ 44 := by decide +kernel
  have h2' : ((rescaleErr smCtx (smCtx.lq - 1) 1 2 1 : ℤ) : ℝ) ≤ 2 ^ 44 := by exact_mod_cast h2
  have hη : prodErr 3 3 (((["user0", "user1"] : List String).length + 1 : ℕ) *
        ((smCtx.N : ℝ) / (2 * prm.scale) + smCtx.N * 39 / prm.scale))
      ((smCtx.N : ℝ) / (2 * prm.scale))
      (smCtx.N * ((rescaleErr smCtx (smCtx.lq - 1) 1
        (["user0", "user1"] : List String).toFinset.card 1 : ℤ) : ℝ))
      (smCtx.q (smCtx.lq - 1)) prm.scale prm.scale (2 ^ 76 / 0x40006b0001) ≤ 2 ^ 14 / 2 ^ 38 := by
    unfold prodErr
    rw [hcard, sm_N, hscR, hsc', sm_q19]
    have h1 : ((0x40006b0001 : ℕ) : ℝ) * (2 ^ 76 / 0x40006b0001) = 2 ^ 76 := by norm_num
    rw [h1]
    have := div_le_div_of_nonneg_right (mul_le_mul_of_nonneg_left h2' (show (0 : ℝ) ≤ 32 by norm_num))
      (show (0 : ℝ) ≤ 2 ^ 76 by positivity)
    refine (add_le_add_right this _).trans ?_
    simp only [List.length_cons, List.length_nil]
    norm_num
  refine ⟨kb, e1, C72_MulPtxt_pass R (by decide) (T := 1) (by norm_num) (fun id _ => (hr id).s)
    (by rw [hfl, hsc]; exact sm_by19) (sm_prodScale hsc hfl).symm rfl
    (by norm_num) ((add_le_add_right hη 9).trans (by norm_num)) ?_ ?_ π πd πo π'⟩
  · calc (2 * (((2 ^ 76 / 0x40006b0001 : ℚ) : ℝ) * 11) : ℝ) ≤ ((2 * (2 ^ 39 * 11) : ℕ) : ℝ) := by
          rw [hsc']; norm_num
      _ < _ := by exact_mod_cast sm_q18
  · rw [add_zero]
    refine (mul_le_mul_of_nonneg_left hη (by rw [hscR]; positivity)).trans ?_
    rw [hscR]
    norm_num

/-- C72, the hoisted rotation by each power of two the test can draw, with the keys of lr's
`genTestParams`. -/
example {prm : CPar smCtx} (hsc : prm.scale = 2 ^ 38) (hfl : prm.fl.Ok) {sample sample' : ℤ → SwKey smCtx}
    (hlen : ((sample 0) 0).Q.len = smCtx.nQ) (hcrs : prm.crs = setupCRS 5 sample sample')
    {rnd : String → PartyRand smCtx} (hr : ∀ id, (rnd id).Ok 19)
    {d : ℕ → Draw smCtx} (hd : ∀ k, Calm (d k)) (draw : ℕ) (π : ℕ → Sched) (πd πh πo π' : Sched) :
    ∃ kb, Lr.genTestParams 5 (newCRS 5 sample) sample' rnd ["user0", "user1"] = .ok (prm.crs, kb) ∧
      testEvaluatorRotHoisted draw kb.rtkSet (stdEncoder smCtx) prm 4 kb (CEnc.new prm) (CDec.new prm)
        Ev.new ["user0", "user1"] d π πd πh πo π' = .ok true := by
  have hs : 0 < prm.scale := by rw [hsc]; norm_num
  have hscR : (prm.scale : ℝ) = 2 ^ 38 := by rw [hsc]; norm_num
  obtain ⟨kb, e1, h1, h2, -, h4, -⟩ := C50_genTestParams smCtx_good smCtx_fits (logN := 5) rfl
    (by norm_num) hfl hs hlen hcrs (B := 19) (D := 2 * 0x80000000080001) (by decide +kernel) (by norm_num)
    (by decide +kernel) (by norm_num) sm_digit (rnd := rnd) ["user0", "user1"] (fun id _ => hr id)
  have K : Keys kb (fun id => (rnd id).s) (fun id => (rnd id).e) ["user0", "user1"] :=
    ⟨h2, fun id hid => by
      obtain ⟨sk, g1, -, g2⟩ := (h1 id hid).sk
      exact ⟨sk, g1, g2⟩, fun id hid => (h1 id hid).pk, by decide⟩
  have R : Ready (stdEncoder smCtx) prm kb (fun id => (rnd id).s) (fun id => (rnd id).e)
      ["user0", "user1"] (CEnc.new prm) (CDec.new prm) Ev.new ["user0", "user1"] d 11
      (smCtx.N / (2 * prm.scale)) 0 (smCtx.N * 39) :=
    ⟨smCtx_good, ⟨5, rfl, by norm_num⟩, hfl, hs, K,
      stdEncoder_accurate (logN := 5) rfl (by norm_num) hs 11, encOk_new prm, rfl, Ev.new_ok,
      fun _ h => h, by simp, fun k id _ j _ => (hd k).noise (hr id) j⟩
  obtain ⟨rrk, a, hrot⟩ := h4.rot
  have hdr : draw % (4 - 1) < 3 := Nat.mod_lt _ (by norm_num)
  have hneeds : rotNeeds prm.crs (slotIdx smCtx.N (2 ^ (draw % (4 - 1)))) (slotIdx smCtx.N
      (2 ^ (draw % (4 - 1)))) := by
    have hmem : ∀ n < 3, slotIdx smCtx.N (2 ^ n) ≠ 0 ∧ (slotIdx smCtx.N (2 ^ n) : ℤ) = 2 ^ n := by
      decide +kernel
    obtain ⟨g1, g2⟩ := hmem _ hdr
    refine ⟨g1, ?_⟩
    rw [if_pos]
    rw [g2, hcrs, setupCRS_has (by positivity)]
    have : ∀ n < 3, (2 ^ n : ℤ) ∈ allRots 5 := by decide +kernel
    exact this _ hdr
  have hcard : (["user0", "user1"] : List String).toFinset.card = 2 := by decide
  have hη : (((["user0", "user1"] : List String).length + 1 : ℕ) *
        ((smCtx.N : ℝ) / (2 * prm.scale) + smCtx.N * 39 / prm.scale)) +
      rotEta smCtx prm.crs (["user0", "user1"] : List String).toFinset.card (2 * 0x80000000080001) 1 19
        (smCtx.lq - 1) (2 ^ (draw % (4 - 1))) / prm.scale ≤ 2 ^ 15 / 2 ^ 38 := by
    rw [hcard, sm_N, hscR]
    have := div_le_div_of_nonneg_right (sm_rotEta prm.crs (2 ^ (draw % (4 - 1))))
      (show (0 : ℝ) ≤ 2 ^ 38 by positivity)
    refine (add_le_add_right this _).trans ?_
    simp only [List.length_cons, List.length_nil]
    norm_num
  refine ⟨kb, e1, C72_RotHoisted_pass R (by decide) smCtx_fits (by norm_num) rfl
    (by norm_num) (by norm_num) (by norm_num) (Or.inr (hrot _ _ hneeds))
    (sm_digit (smCtx.lq - 1) (by decide)) rfl (by norm_num) ((add_le_add_right hη 3).trans (by norm_num))
    ?_ ?_ π πd πh πo π'⟩
  · rw [hscR]
    calc (2 * (2 ^ 38 * 11) : ℝ) = ((2 * (2 ^ 38 * 11) : ℕ) : ℝ) := by norm_num
      _ < _ := by exact_mod_cast sm_q.2
  · rw [add_zero]
    refine (mul_le_mul_of_nonneg_left hη (by rw [hscR]; positivity)).trans ?_
    rw [hscR]
    norm_num

/-- C72, rescaling. -/
example {prm : CPar smCtx} (hsc : prm.scale = 2 ^ 38) (hfl : prm.fl = Fl.exact) (hcrs : CrsFor prm.crs [])
    {rnd : String → PartyRand smCtx} (hr : ∀ id, (rnd id).Ok 19)
    {d1 d2 : Draw smCtx} (hd1 : Calm d1) (hd2 : Calm d2) (π : ℕ → Sched) :
    ∃ kb, genTestParams prm.crs rnd ["user1", "user2"] = .ok kb ∧
      testEvaluatorRescale (stdEncoder smCtx) prm 4 kb (CEnc.new prm) (CDec.new prm) Ev.new d1 d2 π =
        .ok true := by
  have hs : 0 < prm.scale := by rw [hsc]; norm_num
  have hfl' : prm.fl.Ok := hfl ▸ Fl.exact_ok
  have hscR : (prm.scale : ℝ) = 2 ^ 38 := by rw [hsc]; norm_num
  obtain ⟨kb, e1, -, -, R⟩ := ready smCtx_good (logN := 5) rfl (by norm_num) hfl' hs (by decide +kernel)
    (by decide +kernel) hcrs (users := ["user1", "user2"]) (fun id _ => hr id) (by simp) (by decide)
    (d := fun _ => d1) (fun _ => hd1) 11
  have hq : smCtx.q smCtx.lq = 0x4000720001 := by decide +kernel
  have hbig : bigScale prm (smCtx.q smCtx.lq) = 2 ^ 38 * 0x4000720001 := by
    unfold bigScale
    rw [hfl, hsc, hq]
    norm_num [Fl.exact]
  have hk : modConst prm.fl (smCtx.q smCtx.lq) = 0x4000720001 := by
    unfold modConst
    rw [hfl, hq]
    exact roundConst_int Fl.exact_ok (n := 0x4000720001) (by norm_num)
  have hseq : scaleSeq prm.fl smCtx.q smCtx.lq (bigScale prm (smCtx.q smCtx.lq)) 1 = 2 ^ 38 := by
    rw [hbig, hfl, C17_scale_exact]
    norm_num [prod_range_succ, smCtx, pnQ, Ctx.lq]
  have hby : RescaleBy prm.fl smCtx.q prm.scale (bigScale prm (smCtx.q smCtx.lq)) smCtx.lq 1 := by
    rw [hbig, hfl, hsc]
    refine Or.inr ⟨by norm_num, by norm_num, by decide, by decide, fun m hm => ?_, ?_⟩
    · rw [C17_scale_exact, show m = 0 by omega]
      norm_num [prod_range_succ, smCtx, pnQ, Ctx.lq]
    · rw [C17_scale_exact]
      norm_num [prod_range_succ, smCtx, pnQ, Ctx.lq]
  have hcard : (["user1", "user2"] : List String).toFinset.card = 2 := by decide
  have h2 : rescaleErr smCtx smCtx.lq 1 2 1 ≤ 9 * 2 ^ 40 := by decide +kernel
  have h2' : ((rescaleErr smCtx smCtx.lq 1 2 1 : ℤ) : ℝ) ≤ 9 * 2 ^ 40 := by exact_mod_cast h2
  have hη : prodErr 4 1 (2 * ((smCtx.N : ℝ) / (2 * prm.scale) + smCtx.N * 39 / prm.scale)) 0
      (smCtx.N * ((rescaleErr smCtx smCtx.lq 1
        (["user1", "user2"] : List String).toFinset.card 1 : ℤ) : ℝ))
      (smCtx.q smCtx.lq) prm.scale (modConst prm.fl (smCtx.q smCtx.lq)) (2 ^ 38) ≤
        2 ^ 12 / 2 ^ 38 := by
    unfold prodErr
    rw [hk, hcard, sm_N, hscR, hq]
    have := div_le_div_of_nonneg_right (mul_le_mul_of_nonneg_left h2' (show (0 : ℝ) ≤ 32 by norm_num))
      (show (0 : ℝ) ≤ ((0x4000720001 : ℕ) : ℝ) * ((2 ^ 38 : ℚ) : ℝ) by positivity)
    refine (add_le_add_right this _).trans ?_
    norm_num
  have a2 : (2 + ((smCtx.N : ℝ) / (2 * prm.scale) + smCtx.N * 39 / prm.scale) : ℝ) ≤ 11 := by
    rw [sm_N, hscR]; norm_num
  have a3 : (2 * (prm.scale * 11) : ℝ) < smCtx.qProd (min smCtx.lq (CDec.new prm).pool.level) := by
    rw [hscR]
    calc (2 * (2 ^ 38 * 11) : ℝ) = ((2 * (2 ^ 38 * 11) : ℕ) : ℝ) := by norm_num
      _ < _ := by exact_mod_cast sm_q.1
  have a4 : (prm.scale * (((smCtx.N : ℝ) / (2 * prm.scale) + smCtx.N * 39 / prm.scale) + 0) : ℝ) ≤
      2 ^ (4 + 8) := by
    rw [sm_N, hscR]; norm_num
  refine ⟨kb, e1, C72_Rescale_pass (logN := 5) rfl (by norm_num) smCtx_good hfl' R.keys hs R.encoder
      R.encOk R.decOk R.evOk (by simp) (by simp) hd1.unit hd2.unit (fun j _ => hd1.noise (hr _) j)
      (fun j _ => hd2.noise (hr _) j) (by rw [hq]; norm_num) (T := 1) (by norm_num) (fun id _ => (hr id).s)
      hby hseq.symm (by norm_num) rfl a2 (by norm_num) ((add_le_add_right hη 4).trans (by norm_num)) a3
      ?_ a4 ?_ π⟩
  · calc (2 * (((2 ^ 38 : ℚ) : ℝ) * 11) : ℝ) = ((2 * (2 ^ 38 * 11) : ℕ) : ℝ) := by push_cast; norm_num
      _ < _ := by exact_mod_cast sm_q.2
  · rw [add_zero]
    refine (mul_le_mul_of_nonneg_left hη (by rw [hscR]; positivity)).trans ?_
    rw [hscR]
    norm_num

end MK.CT
