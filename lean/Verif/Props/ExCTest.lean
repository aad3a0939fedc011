import Verif.Props.CTest
import Verif.Props.Small
import Verif.TestParams

/-!
# C72 on parameters

`PN15QP880` (ring degree `2^15`, scale `2^54`) for `testEncAndDec` and the rotation test; the moduli of
lr.go at ring degree 32 for the other tests of the evaluator, where the worst-case noise of a product is
below the tolerance.
-/

noncomputable section

namespace MK.CT

open Finset Lr

theorem encOk_new {C : Ctx} (prm : CPar C) : EncOk prm (CEnc.new prm) := ⟨rfl, rfl⟩

/-! ## `PN15QP880` -/

theorem ta_q : (6 * 2 ^ 54 : ℕ) < taCtx.qProd 13 ∧ (6 * 2 ^ 54 : ℕ) < taCtx.qProd 12 := by
  constructor <;> decide +kernel

theorem ta_lq : min taCtx.lq ((CDec.new (C := taCtx) prm).pool.level) = 13 := rfl

/-- **C72**, the first test of `TestCKKS` with the parameter set `PN15QP880`: whatever the CRS, the
secrets and the other samples, there are errors and ephemeral secrets within the bounds of the samplers
for which the assertion of `testEncAndDec` fails. -/
theorem C72_shipped_can_fail {prm : CPar taCtx} (hsc : prm.scale = 2 ^ 54) (hcrs : CrsFor prm.crs [])
    {rnd : String → PartyRand taCtx} {order users : List String} (hr : ∀ id ∈ order, (rnd id).Ok 19)
    (hsub : ∀ id ∈ users, id ∈ order) (hne : users ≠ []) (h0 : "0" ∉ order) (π : ℕ → Sched) :
    ∃ rnd' : String → PartyRand taCtx, (∀ id, (rnd' id).s = (rnd id).s) ∧
      (∀ id ∈ order, (rnd' id).Ok 19) ∧
    ∃ d : ℕ → Draw taCtx, (∀ k, (d k).Unit ∧ (d k).rnd.u.Bdd 1 ∧ (d k).rnd.e0.Bdd 19 ∧
      (d k).rnd.e1.Bdd 19) ∧
    ∃ kb enc dec, genTestParams prm.crs rnd' order = .ok kb ∧
      testEncAndDec (stdEncoder taCtx) prm 14 kb (CEnc.new prm) (CDec.new prm) users d π =
        .ok (enc, dec, false) := by
  have hs : 0 < prm.scale := by rw [hsc]; norm_num
  set rnd' : String → PartyRand taCtx := fun id => { rnd id with e := block taCtx.N (taCtx.N / 6) 19 }
    with hrnd
  set d : ℕ → Draw taCtx := fun _ => ⟨fun _ => 0, fun _ => 0, ⟨block taCtx.N (taCtx.N / 6) 1, 0, 0⟩⟩
    with hd
  have hr' : ∀ id ∈ order, (rnd' id).Ok 19 := fun id hid =>
    ⟨(hr id hid).s, by simpa using block_bdd taCtx.N (taCtx.N / 6) 19, (hr id hid).r, (hr id hid).eb,
      (hr id hid).ed, (hr id hid).ev, (hr id hid).erot⟩
  have hz : ∀ B : ℤ, 0 ≤ B → (0 : Nega taCtx.N ℤ).Bdd B := fun B hB i => by
    show |(0 : ℤ)| ≤ B
    simpa using hB
  have hu1 : (block taCtx.N (taCtx.N / 6) 1).Bdd 1 := by simpa using block_bdd taCtx.N (taCtx.N / 6) 1
  have he1 : (block taCtx.N (taCtx.N / 6) 19).Bdd 19 := by
    simpa using block_bdd taCtx.N (taCtx.N / 6) 19
  obtain ⟨kb, e1, -, K, -⟩ := genTestParams_keys taCtx_good (B := 19) (by decide +kernel)
    (by decide +kernel) hcrs hr' h0
  refine ⟨rnd', fun _ => rfl, hr', d, fun k => ⟨fun i => by simp [hd], hu1, hz _ (by norm_num),
    hz _ (by norm_num)⟩, kb, ?_⟩
  have hE := stdEncoder_accurate (C := taCtx) (logN := 15) rfl (by norm_num) hs 3
  have hN : ((taCtx.N : ℕ) : ℝ) = 32768 := by norm_num [taCtx]
  have hscR : (prm.scale : ℝ) = 2 ^ 54 := by rw [hsc]; norm_num
  obtain ⟨id, hid⟩ : ∃ id, users[0]? = some id := by
    cases users with
    | nil => exact absurd rfl hne
    | cons a l => exact ⟨a, rfl⟩
  obtain ⟨enc', dec', h⟩ := C72_EncAndDec_can_fail (E := stdEncoder taCtx) (prm := prm) (logN := 15) rfl
    (by norm_num) taCtx_good K hs hE (encOk_new prm) (dec := CDec.new prm) rfl hsub (d := d)
    (fun k i => by simp [hd]) π (fun k id' _ => by
      have := Nega.Bdd.mul hu1 he1
      intro i
      have := this i
      simp only [noise, hd, zero_mul, add_zero, hrnd]
      refine this.trans ?_
      show (32768 * (1 * 19) : ℤ) ≤ 19 * (2 * 32768 + 1)
      norm_num) hid rfl rfl rfl rfl (by norm_num)
    (by rw [hN, hscR]; norm_num)
    (by
      rw [ta_lq, hscR]
      have := ta_q.1
      calc (2 * (2 ^ 54 * 3) : ℝ) = ((6 * 2 ^ 54 : ℕ) : ℝ) := by norm_num
        _ < _ := by exact_mod_cast this)
    (by rw [hN, hscR]; norm_num)
  exact ⟨enc', dec', e1, h⟩

/-! ## Draws with little noise -/

/-- The ephemeral secret is `1`, the second error `1`, the first error within the sampler's bound. -/
structure Calm {C : Ctx} (d : Draw C) : Prop where
  unit : d.Unit
  u : d.rnd.u = 1
  e0 : d.rnd.e0.Bdd 19
  e1 : d.rnd.e1 = 1

theorem Calm.noise {C : Ctx} {d : Draw C} (h : Calm d) {rnd : String → PartyRand C} {id : String}
    (hr : (rnd id).Ok 19) (j : ℕ) :
    ‖islot (CT.noise (fun id => (rnd id).s) (fun id => (rnd id).e) d id) j‖ ≤ C.N * 39 := by
  refine slot_le (fun i => ?_) j
  simp only [CT.noise, h.u, h.e1, one_mul]
  have h1 := hr.e i
  have h2 := h.e0 i
  have h3 := hr.s i
  have : |((rnd id).e + d.rnd.e0 + (rnd id).s).coeff i| ≤ 39 := by
    rw [Nega.coeff_add, Nega.coeff_add]
    refine (abs_add_le _ _).trans ?_
    have := abs_add_le ((rnd id).e.coeff i) (d.rnd.e0.coeff i)
    linarith
  exact_mod_cast this

theorem ready {C : Ctx} (hC : C.Good) {logN : ℕ} (hN : C.N = 2 ^ logN) (hlog : 1 ≤ logN) {prm : CPar C}
    (hfl : prm.fl.Ok) (hs : 0 < prm.scale) (hq : 2 < C.q 0) (hB : 2 * 19 < (C.q 0 : ℤ))
    (hcrs : CrsFor prm.crs []) {rnd : String → PartyRand C} {users : List String}
    (hr : ∀ id ∈ users, (rnd id).Ok 19) (hne : users ≠ []) (h0 : "0" ∉ users) {d : ℕ → Draw C}
    (hd : ∀ k, Calm (d k)) (M : ℝ) :
    ∃ kb, genTestParams prm.crs rnd users = .ok kb ∧ RlkReach kb.rlkSet ∧
      (∀ id ∈ users, PartyKeys prm.crs [] kb (rnd id) 19 id) ∧
      Ready (stdEncoder C) prm kb (fun id => (rnd id).s) (fun id => (rnd id).e) users (CEnc.new prm)
        (CDec.new prm) Ev.new users d M (C.N / (2 * prm.scale)) 0 (C.N * 39) := by
  obtain ⟨kb, e1, h1, K, h2⟩ := genTestParams_keys hC hq hB hcrs hr h0
  exact ⟨kb, e1, h1, h2, hC, ⟨logN, hN, hlog⟩, hfl, hs, K, stdEncoder_accurate hN hlog hs M,
    encOk_new prm, rfl, Ev.new_ok, fun _ h => h, hne,
    fun k id hk j _ => (hd k).noise (hr id (List.mem_of_getElem? hk)) j⟩

/-- C72, the blind rotation test with the parameter set `PN15QP880`, up to 24 users, all their keys,
first errors and orders, every amount. -/
example {prm : CPar taCtx} (hsc : prm.scale = 2 ^ 54) (hfl : prm.fl.Ok) (hcrs : CrsFor prm.crs [])
    {rnd : String → PartyRand taCtx} {users : List String} (hr : ∀ id ∈ users, (rnd id).Ok 19)
    (hne : users ≠ []) (h0 : "0" ∉ users) (hlen : users.length ≤ 24) {d : ℕ → Draw taCtx}
    (hd : ∀ k, Calm (d k)) (rot : ℤ) (π : ℕ → Sched) (πd π' : Sched) :
    ∃ kb, genTestParams prm.crs rnd users = .ok kb ∧
      testRotWith (fun ev ct => .ok (ev, ct)) rot (stdEncoder taCtx) prm 14 kb (CEnc.new prm)
        (CDec.new prm) Ev.new users d π πd π' = .ok true := by
  have hs : 0 < prm.scale := by rw [hsc]; norm_num
  obtain ⟨kb, e1, -, -, R⟩ := ready taCtx_good (logN := 15) rfl (by norm_num) hfl hs (by decide +kernel)
    (by decide +kernel) hcrs hr hne h0 hd 4
  have hN : ((taCtx.N : ℕ) : ℝ) = 32768 := by norm_num [taCtx]
  have hscR : (prm.scale : ℝ) = 2 ^ 54 := by rw [hsc]; norm_num
  have hl : ((users.length + 1 : ℕ) : ℝ) ≤ 25 := by exact_mod_cast Nat.succ_le_succ hlen
  have hq : (8 * 2 ^ 54 : ℕ) < taCtx.qProd 12 := by decide +kernel
  refine ⟨kb, e1, C72_Rot_blind R (by decide) (by norm_num) ?_ ?_ ?_ rot π πd π'⟩
  · rw [hN, hscR]
    calc (3 + ((users.length + 1 : ℕ) : ℝ) * (32768 / (2 * 2 ^ 54) + 32768 * 39 / 2 ^ 54) : ℝ)
        ≤ 3 + 25 * (32768 / (2 * 2 ^ 54) + 32768 * 39 / 2 ^ 54) := by gcongr
      _ ≤ 4 := by norm_num
  · rw [hscR]
    calc (2 * (2 ^ 54 * 4) : ℝ) = ((8 * 2 ^ 54 : ℕ) : ℝ) := by norm_num
      _ < _ := by exact_mod_cast hq
  · rw [hN, hscR]
    calc (2 ^ 54 * (((users.length + 1 : ℕ) : ℝ) * (32768 / (2 * 2 ^ 54) + 32768 * 39 / 2 ^ 54) + 0) : ℝ)
        ≤ 2 ^ 54 * (25 * (32768 / (2 * 2 ^ 54) + 32768 * 39 / 2 ^ 54) + 0) := by gcongr
      _ ≤ 2 ^ (14 + 11) := by norm_num

/-- C72, the conjugation test with the same parameters notices a missing conjugation. -/
example {prm : CPar taCtx} (hsc : prm.scale = 2 ^ 54) (hfl : prm.fl.Ok) (hcrs : CrsFor prm.crs [])
    {rnd : String → PartyRand taCtx} {users : List String} (hr : ∀ id ∈ users, (rnd id).Ok 19)
    (hne : users ≠ []) (h0 : "0" ∉ users) (hlen : users.length ≤ 24) {d : ℕ → Draw taCtx}
    (hd : ∀ k, Calm (d k)) (π : ℕ → Sched) (π' : Sched) :
    ∃ kb, genTestParams prm.crs rnd users = .ok kb ∧
      testSum (fun _ ev ct => .ok (ev, ct)) (fun msg out => checkC prm 14 11 out.length fun i =>
        out.getD i 0 - starRingEnd ℂ (msg.getD i 0)) (zRot users.length) (stdEncoder taCtx) prm kb
        (CEnc.new prm) (CDec.new prm) Ev.new users d π π' = .ok false := by
  have hs : 0 < prm.scale := by rw [hsc]; norm_num
  obtain ⟨kb, e1, -, -, R⟩ := ready taCtx_good (logN := 15) rfl (by norm_num) hfl hs (by decide +kernel)
    (by decide +kernel) hcrs hr hne h0 hd 4
  have hN : ((taCtx.N : ℕ) : ℝ) = 32768 := by norm_num [taCtx]
  have hscR : (prm.scale : ℝ) = 2 ^ 54 := by rw [hsc]; norm_num
  have hl : ((users.length + 1 : ℕ) : ℝ) ≤ 25 := by exact_mod_cast Nat.succ_le_succ hlen
  have hq : (8 * 2 ^ 54 : ℕ) < taCtx.qProd 13 := by decide +kernel
  refine ⟨kb, e1, C72_Conj_sees R (by norm_num) ?_ ?_ ?_ π π'⟩
  · rw [hN, hscR]
    calc (3 + ((users.length + 1 : ℕ) : ℝ) * (32768 / (2 * 2 ^ 54) + 32768 * 39 / 2 ^ 54) : ℝ)
        ≤ 3 + 25 * (32768 / (2 * 2 ^ 54) + 32768 * 39 / 2 ^ 54) := by gcongr
      _ ≤ 4 := by norm_num
  · rw [hscR]
    calc (2 * (2 ^ 54 * 4) : ℝ) = ((8 * 2 ^ 54 : ℕ) : ℝ) := by norm_num
      _ < _ := by exact_mod_cast hq
  · rw [hN, hscR]
    calc (2 ^ (14 + 11) : ℝ)
        < 2 ^ 54 * (2 - (25 * (32768 / (2 * 2 ^ 54) + 32768 * 39 / 2 ^ 54) + 0)) := by norm_num
      _ ≤ _ := by gcongr

/-! ## Ring degree 32 -/

theorem sm_q : (2 * (2 ^ 38 * 11) : ℕ) < smCtx.qProd 20 ∧ (2 * (2 ^ 38 * 11) : ℕ) < smCtx.qProd 19 := by
  constructor <;> decide +kernel

theorem sm_N : ((smCtx.N : ℕ) : ℝ) = 32 := by norm_num [smCtx]

/-- C72, `testEncAndDec` passes. -/
example {prm : CPar smCtx} (hsc : prm.scale = 2 ^ 38) (hfl : prm.fl.Ok) (hcrs : CrsFor prm.crs [])
    {rnd : String → PartyRand smCtx} {users : List String} (hr : ∀ id ∈ users, (rnd id).Ok 19)
    (hne : users ≠ []) (h0 : "0" ∉ users) {d : ℕ → Draw smCtx} (hd : ∀ k, Calm (d k))
    (π : ℕ → Sched) : ∃ kb enc dec, genTestParams prm.crs rnd users = .ok kb ∧
      testEncAndDec (stdEncoder smCtx) prm 4 kb (CEnc.new prm) (CDec.new prm) users d π =
        .ok (enc, dec, true) := by
  have hs : 0 < prm.scale := by rw [hsc]; norm_num
  have hscR : (prm.scale : ℝ) = 2 ^ 38 := by rw [hsc]; norm_num
  obtain ⟨kb, e1, -, -, R⟩ := ready smCtx_good (logN := 5) rfl (by norm_num) hfl hs (by decide +kernel)
    (by decide +kernel) hcrs hr hne h0 hd 11
  obtain ⟨enc, dec, h, -⟩ := C72_EncAndDec_pass (logN := 5) rfl (by norm_num) smCtx_good R.keys hs
    (logSlots := 4) R.encoder R.encOk R.decOk R.usersIn (fun k => (hd k).unit) π R.noiseLe (by norm_num)
    (by rw [sm_N, hscR]; norm_num)
    (by
      rw [hscR]
      calc (2 * (2 ^ 38 * 11) : ℝ) = ((2 * (2 ^ 38 * 11) : ℕ) : ℝ) := by norm_num
        _ < _ := by exact_mod_cast sm_q.1)
    (by rw [sm_N, hscR]; norm_num)
  exact ⟨kb, enc, dec, e1, h⟩

/-- C72, addition and subtraction. -/
example {prm : CPar smCtx} (hsc : prm.scale = 2 ^ 38) (hfl : prm.fl.Ok) (hcrs : CrsFor prm.crs [])
    {rnd : String → PartyRand smCtx} (hr : ∀ id, (rnd id).Ok 19)
    {d1 d2 : Draw smCtx} (hd1 : Calm d1) (hd2 : Calm d2) (π : ℕ → Sched) :
    ∃ kb, genTestParams prm.crs rnd ["user1", "user2"] = .ok kb ∧
      testEvaluatorAdd (stdEncoder smCtx) prm 4 kb (CEnc.new prm) (CDec.new prm) Ev.new d1 d2 π =
        .ok true ∧
      testEvaluatorSub (stdEncoder smCtx) prm 4 kb (CEnc.new prm) (CDec.new prm) Ev.new d1 d2 π =
        .ok true := by
  have hs : 0 < prm.scale := by rw [hsc]; norm_num
  have hscR : (prm.scale : ℝ) = 2 ^ 38 := by rw [hsc]; norm_num
  obtain ⟨kb, e1, -, -, R⟩ := ready smCtx_good (logN := 5) rfl (by norm_num) hfl hs (by decide +kernel)
    (by decide +kernel) hcrs (users := ["user1", "user2"]) (fun id _ => hr id) (by simp) (by decide)
    (d := fun _ => d1) (fun _ => hd1) 11
  have a1 : (0 : ℝ) ≤ smCtx.N / (2 * prm.scale) + smCtx.N * 39 / prm.scale := by
    rw [sm_N, hscR]; norm_num
  have a2 : (4 + 2 * (smCtx.N / (2 * prm.scale) + smCtx.N * 39 / prm.scale) : ℝ) ≤ 11 := by
    rw [sm_N, hscR]; norm_num
  have a3 : (2 * (prm.scale * 11) : ℝ) < smCtx.qProd (min smCtx.lq (CDec.new prm).pool.level) := by
    rw [hscR]
    calc (2 * (2 ^ 38 * 11) : ℝ) = ((2 * (2 ^ 38 * 11) : ℕ) : ℝ) := by norm_num
      _ < _ := by exact_mod_cast sm_q.1
  have a4 : (prm.scale * (2 * (smCtx.N / (2 * prm.scale) + smCtx.N * 39 / prm.scale) + 0) : ℝ) ≤
      2 ^ (4 + 8) := by
    rw [sm_N, hscR]; norm_num
  exact ⟨kb, e1, C72_Add_pass (logN := 5) rfl (by norm_num) smCtx_good hfl R.keys hs R.encoder R.encOk
      R.decOk R.evOk (by simp) (by simp) hd1.unit hd2.unit (fun j _ => hd1.noise (hr _) j)
      (fun j _ => hd2.noise (hr _) j) a1 a2 a3 a4 π,
    C72_Sub_pass (logN := 5) rfl (by norm_num) smCtx_good hfl R.keys hs R.encoder R.encOk
      R.decOk R.evOk (by simp) (by simp) hd1.unit hd2.unit (fun j _ => hd1.noise (hr _) j)
      (fun j _ => hd2.noise (hr _) j) a1 a2 a3 a4 π⟩

theorem sm_by : RescaleBy Fl.exact smCtx.q (2 ^ 38) (2 ^ 38 * 2 ^ 38) smCtx.lq 1 := by
  refine Or.inr ⟨by norm_num, by norm_num, by decide, ?_⟩
  refine ⟨by decide, fun m hm => ?_, ?_⟩
  · rw [C17_scale_exact, show m = 0 by omega]
    norm_num [prod_range_succ, smCtx, pnQ, Ctx.lq]
  · rw [C17_scale_exact]
    norm_num [prod_range_succ, smCtx, pnQ, Ctx.lq]

theorem sm_mulEta : mulEta smCtx 2 (2 * 0x80000000080001) 1 19 smCtx.lq ≤ 2 ^ 50 := by
  have h1 : (32 * mulNoise smCtx 20 2 2 (2 * 0x80000000080001) (2 * 0x80000000080001)
      (2 * 0x80000000080001) 1 19 : ℤ) ≤ 2 ^ 49 * smCtx.P := by decide +kernel
  have h2 : (32 * rescaleErr smCtx 20 1 2 1 : ℤ) ≤ 2 ^ 49 := by decide +kernel
  have hP : (0 : ℝ) < smCtx.P := by exact_mod_cast smCtx_good.P_pos
  unfold mulEta
  rw [sm_N]
  have h1' : ((32 : ℝ) * (mulNoise smCtx 20 2 2 (2 * 0x80000000080001) (2 * 0x80000000080001)
      (2 * 0x80000000080001) 1 19 : ℤ)) / smCtx.P ≤ 2 ^ 49 := by
    rw [div_le_iff₀ hP]; exact_mod_cast h1
  have h2' : (32 : ℝ) * (rescaleErr smCtx 20 1 2 1 : ℤ) ≤ 2 ^ 49 := by exact_mod_cast h2
  exact (add_le_add h1' h2').trans (by norm_num)

/-- C72, multiplication with two users. -/
example {prm : CPar smCtx} (hsc : prm.scale = 2 ^ 38) (hfl : prm.fl = Fl.exact) (hcrs : CrsFor prm.crs [])
    {rnd : String → PartyRand smCtx} (hr : ∀ id, (rnd id).Ok 19)
    {d : ℕ → Draw smCtx} (hd : ∀ k, Calm (d k)) (π : ℕ → Sched) (πo π' : Sched) :
    ∃ kb, genTestParams prm.crs rnd ["user0", "user1"] = .ok kb ∧
      testEvaluatorMul (stdEncoder smCtx) prm 4 kb (CEnc.new prm) (CDec.new prm) Ev.new
        ["user0", "user1"] d π πo π' = .ok true := by
  have hs : 0 < prm.scale := by rw [hsc]; norm_num
  have hscR : (prm.scale : ℝ) = 2 ^ 38 := by rw [hsc]; norm_num
  obtain ⟨kb, e1, h1, h2, R⟩ := ready smCtx_good (logN := 5) rfl (by norm_num) (hfl ▸ Fl.exact_ok) hs
    (by decide +kernel) (by decide +kernel) hcrs (users := ["user0", "user1"]) (fun id _ => hr id)
    (by simp) (by decide) hd 11
  obtain ⟨a, u, hu, k1, k2, k3⟩ := genTestParams_relin hcrs (fun id _ => hr id) h1 h2
  have hq : (0x4000720001 : ℝ) = ((smCtx.q smCtx.lq : ℕ) : ℝ) := by
    norm_num [smCtx, pnQ, Ctx.lq]
  have hps : prodScale prm.fl smCtx.q smCtx.lq prm.scale prm.scale = 2 ^ 76 / 0x4000720001 := by
    rw [hfl, hsc]
    unfold prodScale
    rw [C17_scale_exact]
    norm_num [prod_range_succ, smCtx, pnQ, Ctx.lq, Fl.exact]
  have hsc' : ((2 ^ 76 / 0x4000720001 : ℚ) : ℝ) = 2 ^ 76 / 0x4000720001 := by push_cast; rfl
  have hcard : (["user0", "user1"] : List String).toFinset.card = 2 := by decide
  have hη : prodErr 3 3 (((["user0", "user1"] : List String).length + 1 : ℕ) *
        ((smCtx.N : ℝ) / (2 * prm.scale) + smCtx.N * 39 / prm.scale))
      (((["user0", "user1"] : List String).length + 1 : ℕ) *
        ((smCtx.N : ℝ) / (2 * prm.scale) + smCtx.N * 39 / prm.scale))
      (mulEta smCtx (["user0", "user1"] : List String).toFinset.card (2 * 0x80000000080001) 1 19 smCtx.lq)
      (smCtx.q smCtx.lq) prm.scale prm.scale (2 ^ 76 / 0x4000720001) ≤ 2 ^ 15 / 2 ^ 38 := by
    unfold prodErr
    rw [hcard, sm_N, hscR, hsc', ← hq]
    have h1 : (0x4000720001 : ℝ) * (2 ^ 76 / 0x4000720001) = 2 ^ 76 := by norm_num
    rw [h1]
    have := div_le_div_of_nonneg_right sm_mulEta (show (0 : ℝ) ≤ 2 ^ 76 by positivity)
    refine (add_le_add_right this _).trans ?_
    simp only [List.length_cons, List.length_nil]
    norm_num
  refine ⟨kb, e1, C72_Mul_pass R smCtx_fits hu k1 k2 (by norm_num) (by norm_num) (by norm_num)
    sm_digit k3 (by rw [hfl, hsc]; exact sm_by) hps.symm rfl (by norm_num)
    ((add_le_add_right hη 9).trans (by norm_num)) ?_ ?_ π πo π'⟩
  · calc (2 * (((2 ^ 76 / 0x4000720001 : ℚ) : ℝ) * 11) : ℝ) ≤ ((2 * (2 ^ 38 * 11) : ℕ) : ℝ) := by
          rw [hsc']; norm_num
      _ < _ := by exact_mod_cast sm_q.2
  · rw [add_zero]
    refine (mul_le_mul_of_nonneg_left hη (by rw [hscR]; positivity)).trans ?_
    rw [hscR]
    norm_num

theorem sm_ext : (32 * (4 * (2 * extNoise smCtx 19 (2 * 0x80000000080001) 1 19)) : ℤ) ≤
    18000 * smCtx.P ∧ (32 * (1 * extNoise smCtx 20 (2 * 0x80000000080001) 1 19) : ℤ) ≤
    2 ^ 14 * smCtx.P := by constructor <;> decide +kernel

theorem sm_rotEta (crs : CRS smCtx) (k : ℤ) :
    rotEta smCtx crs 2 (2 * 0x80000000080001) 1 19 (smCtx.lq - 1) k ≤ 18000 := by
  have hP : (0 : ℝ) < smCtx.P := by exact_mod_cast smCtx_good.P_pos
  have hc : rotCount crs (slotIdx smCtx.N k) ≤ 4 := by
    have hlt : slotIdx smCtx.N k < 16 := slotIdx_lt (by decide) k
    have : ∀ r < 16, (Nat.digits 2 r).sum ≤ 4 := by decide +kernel
    unfold rotCount
    split_ifs
    · omega
    · omega
    · exact this _ hlt
  have h0 := extNoise_nonneg (C := smCtx) (l := 19) (D := 2 * 0x80000000080001) (T := 1) (B := 19)
    (by norm_num) (by norm_num) (by norm_num)
  have hc' : ((rotCount crs (slotIdx smCtx.N k) : ℕ) : ℤ) ≤ 4 := by exact_mod_cast hc
  have h1 : (32 * (rotCount crs (slotIdx smCtx.N k) * (((2 : ℕ) : ℤ) *
      extNoise smCtx 19 (2 * 0x80000000080001) 1 19)) : ℤ) ≤ 18000 * smCtx.P :=
    le_trans (by push_cast; gcongr) sm_ext.1
  unfold rotEta
  rw [div_le_iff₀ hP, sm_N]
  exact_mod_cast h1

/-- C72, rotation: with the keys of lr's `genTestParams` the test passes with a rotation by `k` in the
place of the rotation by `rot`, for all `k` and `rot`. -/
example {prm : CPar smCtx} (hsc : prm.scale = 2 ^ 38) (hfl : prm.fl.Ok) {sample sample' : ℤ → SwKey smCtx}
    (hlen : ((sample 0) 0).Q.len = smCtx.nQ) (hcrs : prm.crs = setupCRS 5 sample sample')
    {rnd : String → PartyRand smCtx} (hr : ∀ id, (rnd id).Ok 19)
    {d : ℕ → Draw smCtx} (hd : ∀ k, Calm (d k)) (k rot : ℤ) (π : ℕ → Sched) (πd πo π' : Sched) :
    ∃ kb, Lr.genTestParams 5 (newCRS 5 sample) sample' rnd ["user0", "user1"] = .ok (prm.crs, kb) ∧
      testRotWith (fun ev ct => ev.RotateNew prm ct k kb.rtkSet πo) rot (stdEncoder smCtx) prm 4 kb
        (CEnc.new prm) (CDec.new prm) Ev.new ["user0", "user1"] d π πd π' = .ok true := by
  have hs : 0 < prm.scale := by rw [hsc]; norm_num
  have hscR : (prm.scale : ℝ) = 2 ^ 38 := by rw [hsc]; norm_num
  obtain ⟨kb, e1, h1, h2, -, h4, -⟩ := C50_genTestParams smCtx_good smCtx_fits (logN := 5) rfl
    (by norm_num) hfl hs hlen hcrs (B := 19) (D := 2 * 0x80000000080001) (by decide +kernel) (by norm_num)
    (by decide +kernel) (by norm_num) sm_digit (rnd := rnd) ["user0", "user1"] (fun id _ => hr id)
  have K : Keys kb (fun id => (rnd id).s) (fun id => (rnd id).e) ["user0", "user1"] :=
    ⟨h2, fun id hid => by
      obtain ⟨sk, g1, -, g2⟩ := (h1 id hid).sk
      exact ⟨sk, g1, g2⟩, fun id hid => (h1 id hid).pk, by decide⟩
  have R : Ready (stdEncoder smCtx) prm kb (fun id => (rnd id).s) (fun id => (rnd id).e)
      ["user0", "user1"] (CEnc.new prm) (CDec.new prm) Ev.new ["user0", "user1"] d 11
      (smCtx.N / (2 * prm.scale)) 0 (smCtx.N * 39) :=
    ⟨smCtx_good, ⟨5, rfl, by norm_num⟩, hfl, hs, K,
      stdEncoder_accurate (logN := 5) rfl (by norm_num) hs 11, encOk_new prm, rfl, Ev.new_ok,
      fun _ h => h, by simp, fun k id _ j _ => (hd k).noise (hr id) j⟩
  obtain ⟨rrk, a, hrot⟩ := h4.rot
  have hcard : (["user0", "user1"] : List String).toFinset.card = 2 := by decide
  have hη : (((["user0", "user1"] : List String).length + 1 : ℕ) *
        ((smCtx.N : ℝ) / (2 * prm.scale) + smCtx.N * 39 / prm.scale)) +
      rotEta smCtx prm.crs (["user0", "user1"] : List String).toFinset.card (2 * 0x80000000080001) 1 19
        (smCtx.lq - 1) k / prm.scale ≤ 2 ^ 15 / 2 ^ 38 := by
    rw [hcard, sm_N, hscR]
    have := div_le_div_of_nonneg_right (sm_rotEta prm.crs k) (show (0 : ℝ) ≤ 2 ^ 38 by positivity)
    refine (add_le_add_right this _).trans ?_
    simp only [List.length_cons, List.length_nil]
    norm_num
  refine ⟨kb, e1, C72_Rot_wrong R (by decide) smCtx_fits k (fun idx h => (hrot k idx h).1)
    (by norm_num) (by norm_num) (by norm_num) (fun idx h => (hrot k idx h).2)
    (sm_digit (smCtx.lq - 1) (by decide)) rfl (by norm_num) ((add_le_add_right hη 3).trans (by norm_num))
    ?_ ?_ rot π πd πo π'⟩
  · rw [hscR]
    calc (2 * (2 ^ 38 * 11) : ℝ) = ((2 * (2 ^ 38 * 11) : ℕ) : ℝ) := by norm_num
      _ < _ := by exact_mod_cast sm_q.2
  · rw [add_zero]
    refine (mul_le_mul_of_nonneg_left hη (by rw [hscR]; positivity)).trans ?_
    rw [hscR]
    norm_num

/-- C72, conjugation with one user, whose conjugation key has been generated. -/
example {prm : CPar smCtx} (hsc : prm.scale = 2 ^ 38) (hfl : prm.fl.Ok) (hcrs : CrsFor prm.crs [])
    {u : SwKey smCtx} (hu : prm.crs.get? (-2) = some u)
    {rnd : String → PartyRand smCtx} (hr : ∀ id, (rnd id).Ok 19) {ec : ℕ → Nega smCtx.N ℤ}
    (hec : ∀ k, (ec k).Bdd 19)
    {d : ℕ → Draw smCtx} (hd : ∀ k, Calm (d k)) (π : ℕ → Sched) (πo π' : Sched) :
    ∃ kb sk cjk, genTestParams prm.crs rnd ["user0"] = .ok kb ∧
      kb.skSet.value.get? "user0" = some sk ∧
      GenConjugationKey prm.crs (RPoly.new 0) ec sk = .ok cjk ∧
      testEvaluatorConj (KeySet.new.add (fun _ => "user0") cjk) (stdEncoder smCtx) prm 4 kb (CEnc.new prm)
        (CDec.new prm) Ev.new ["user0"] d π πo π' = .ok true := by
  have hs : 0 < prm.scale := by rw [hsc]; norm_num
  have hscR : (prm.scale : ℝ) = 2 ^ 38 := by rw [hsc]; norm_num
  obtain ⟨kb, e1, -, -, R⟩ := ready smCtx_good (logN := 5) rfl (by norm_num) hfl hs (by decide +kernel)
    (by decide +kernel) hcrs (users := ["user0"]) (fun id _ => hr id) (by simp) (by decide) hd 11
  obtain ⟨sk, g1, g2⟩ := R.keys.sk "user0" (by simp)
  obtain ⟨cjk, g3, -, g4⟩ := C34_conjugation_key smCtx_good hu g2
    (fun k => Bdd.small (hec k) (by decide +kernel)) (RPoly.new 0)
  have hcard : (["user0"] : List String).toFinset.card = 1 := by decide
  have hη : (((["user0"] : List String).length + 1 : ℕ) *
        ((smCtx.N : ℝ) / (2 * prm.scale) + smCtx.N * 39 / prm.scale)) +
      (smCtx.N * (((["user0"] : List String).toFinset.card *
        extNoise smCtx smCtx.lq (2 * 0x80000000080001) 1 19 : ℤ) : ℝ) / smCtx.P) / prm.scale ≤
      2 ^ 15 / 2 ^ 38 := by
    have hP : (0 : ℝ) < smCtx.P := by exact_mod_cast smCtx_good.P_pos
    have h1 : (32 * (((1 : ℕ) * extNoise smCtx smCtx.lq (2 * 0x80000000080001) 1 19 : ℤ) : ℝ) / smCtx.P) ≤
        2 ^ 14 := by
      rw [div_le_iff₀ hP]
      have := sm_ext.2
      exact_mod_cast this
    rw [hcard, sm_N, hscR]
    have := div_le_div_of_nonneg_right h1 (show (0 : ℝ) ≤ 2 ^ 38 by positivity)
    refine (add_le_add_right this _).trans ?_
    simp only [List.length_cons, List.length_nil]
    norm_num
  refine ⟨kb, sk, cjk, e1, g1, g3, C72_Conj_pass R smCtx_fits (ck := fun _ => cjk)
    (fun id hid => ?_) hu (ec := fun _ => ec) (fun id hid => ?_) (by norm_num) (by norm_num)
    (by norm_num) (sm_digit smCtx.lq (by decide)) (fun id _ => (hr id).s) (fun _ _ => hec) rfl (by norm_num)
    ((add_le_add_right hη 3).trans (by norm_num)) ?_ ?_ π πo π'⟩
  · obtain rfl : id = "user0" := by simpa using hid
    simp [KeySet.get, KeySet.add]
  · obtain rfl : id = "user0" := by simpa using hid
    exact g4
  · rw [hscR]
    calc (2 * (2 ^ 38 * 11) : ℝ) = ((2 * (2 ^ 38 * 11) : ℕ) : ℝ) := by norm_num
      _ < _ := by exact_mod_cast sm_q.1
  · rw [add_zero]
    refine (mul_le_mul_of_nonneg_left hη (by rw [hscR]; positivity)).trans ?_
    rw [hscR]
    norm_num

end MK.CT
