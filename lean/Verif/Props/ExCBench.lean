import Verif.Props.TestAll
import Verif.Props.ExCTest
import Verif.Props.ExEval

/-!
# C73 on parameters: `TestCKKS` and the benchmarks with the parameter sets of mkckks
-/

noncomputable section

namespace MK.CT

open Finset Lr

/-- With a modulus close to the scale the product of two ciphertexts at default scale loses exactly one
modulus, in floating point too. -/
theorem rescaleBy_one {F : Fl} (hF : F.Ok) {q : ℕ → ℕ} {ms : ℚ} (hms : 0 < ms) {L : ℕ} (hL : 1 ≤ L)
    (hq : (q L : ℚ) ≤ ms) (h0 : 0 < q L) (h1 : 0 < q (L - 1)) (hbig : 4 * ms ≤ q L * q (L - 1)) :
    RescaleBy F q ms (F.rnd (ms * ms)) L 1 := by
  have lo : ∀ {x : ℚ}, 0 ≤ x → x * (9 / 10) ≤ F.rnd x := fun {x} hx =>
    le_trans (mul_le_mul_of_nonneg_left (by norm_num) hx) (hF.bounds hx).1
  have hi : ∀ {x : ℚ}, 0 ≤ x → F.rnd x ≤ x * (11 / 10) := fun {x} hx =>
    le_trans (hF.bounds hx).2 (mul_le_mul_of_nonneg_left (by norm_num) hx)
  have a0 : (0 : ℚ) < q L := by exact_mod_cast h0
  have b0 : (0 : ℚ) < q (L - 1) := by exact_mod_cast h1
  have s0 := hF.pos (mul_pos hms hms)
  have s1 := lo (mul_pos hms hms).le
  have s2 := hi (mul_pos hms hms).le
  have ra0 := hF.pos a0
  have ra1 := lo a0.le
  have ra2 := hi a0.le
  have rb0 := hF.pos b0
  have rb1 := lo b0.le
  refine Or.inr ⟨hms, s0.ne', hL, hL, fun m hm => ?_, ?_⟩
  · obtain rfl : m = 0 := by omega
    simp only [scaleSeq, Nat.sub_zero]
    have hd : ms * (81 / 110) ≤ F.rnd (ms * ms) / F.rnd (q L) := by
      rw [le_div_iff₀ ra0]
      nlinarith
    have := lo (div_pos s0 ra0).le
    nlinarith
  · simp only [scaleSeq, Nat.sub_zero]
    have hd : F.rnd (ms * ms) / F.rnd (q L) ≤ ms * ms / q L * (11 / 9) := by
      rw [div_le_iff₀ ra0]
      have : ms * ms / q L * (11 / 9) * (q L * (9 / 10)) = ms * ms * (11 / 10) := by field_simp
      have h2 : 0 ≤ ms * ms / q L * (11 / 9) := by positivity
      nlinarith
    have e1 := hi (div_pos s0 ra0).le
    have p1 := hF.pos (div_pos s0 ra0)
    have e2 := hi (div_pos p1 rb0).le
    have hd2 : F.rnd (F.rnd (ms * ms) / F.rnd (q L)) / F.rnd (q (L - 1)) ≤
        ms * ms / (q L * q (L - 1)) * (121 / 81) := by
      rw [div_le_iff₀ rb0]
      have h3 : ms * ms / (q L * q (L - 1)) * (121 / 81) * (q (L - 1) * (9 / 10)) =
          ms * ms / q L * (11 / 9) * (11 / 10) := by field_simp; norm_num
      have h4 : 0 ≤ ms * ms / (q L * q (L - 1)) * (121 / 81) := by positivity
      nlinarith
    have h5 : ms * ms / (q L * q (L - 1)) ≤ ms / 4 := by
      rw [div_le_iff₀ (mul_pos a0 b0)]
      nlinarith
    nlinarith

theorem digitMax_of {C : Ctx} (ha : C.alpha = 1) {Q : ℕ} (h1 : 1 ≤ Q) (hq : ∀ i < C.nQ, C.q i ≤ Q) :
    digitMax C (2 * Q) := by
  intro L hL k _
  have hs : (range (L + 1)).filter (· / C.alpha = k) ⊆ {k} := by
    intro i hi
    rw [mem_filter, ha, Nat.div_one] at hi
    simp [hi.2]
  have h2 : blockSetProd C L k ≤ Q := by
    unfold blockSetProd
    rcases subset_singleton_iff.mp hs with h | h
    · rw [h, prod_empty]; exact h1
    · rw [h, prod_singleton]
      have : k ∈ (range (L + 1)).filter (· / C.alpha = k) := by rw [h]; simp
      rw [mem_filter, mem_range] at this
      exact hq k (lt_of_lt_of_le this.1 hL)
  exact_mod_cast Nat.mul_le_mul_left 2 h2

theorem ta_digit : digitMax taCtx (2 * (2 ^ 60 : ℕ)) := digitMax_of rfl (by norm_num) (by decide +kernel)

theorem tb_digit : digitMax tbCtx (2 * (2 ^ 60 : ℕ)) := digitMax_of rfl (by norm_num) (by decide +kernel)

theorem ta_by {prm : CPar taCtx} (hsc : prm.scale = 2 ^ 54) (hfl : prm.fl.Ok) :
    RescaleBy prm.fl taCtx.q prm.scale (prm.fl.rnd (prm.scale * prm.scale)) taCtx.lq 1 := by
  have h1 : taCtx.q taCtx.lq = 0x3ffffffed30001 := by decide +kernel
  have h2 : taCtx.q (taCtx.lq - 1) = 0x3ffffffed70001 := by decide +kernel
  refine rescaleBy_one hfl (by rw [hsc]; norm_num) (by decide) ?_ ?_ ?_ ?_ <;>
    simp only [h1, h2, hsc] <;> norm_num

theorem tb_by {prm : CPar tbCtx} (hsc : prm.scale = 2 ^ 52) (hfl : prm.fl.Ok) :
    RescaleBy prm.fl tbCtx.q prm.scale (prm.fl.rnd (prm.scale * prm.scale)) tbCtx.lq 1 := by
  have h1 : tbCtx.q tbCtx.lq = 0xfffffffa60001 := by decide +kernel
  have h2 : tbCtx.q (tbCtx.lq - 1) = 0xfffffffbe0001 := by decide +kernel
  refine rescaleBy_one hfl (by rw [hsc]; norm_num) (by decide) ?_ ?_ ?_ ?_ <;>
    simp only [h1, h2, hsc] <;> norm_num

/-- **C73**, `TestCKKS` with the parameter set `PN15QP880`: any number of users, all samples, float64
scales, any encoder that gives one number for every slot. -/
theorem C73_shipped_TestCKKS {E : Encoder taCtx (List ℂ)} (hlen : ∀ m sc, (E.decode m sc).length = 16384)
    {prm : CPar taCtx} (hsc : prm.scale = 2 ^ 54) (hfl : prm.fl.Ok) (hcrs : CrsFor prm.crs [])
    {maxUsers : ℕ} {rnd : String → PartyRand taCtx} {order : List String}
    (ho : order.Perm (userList maxUsers)) (hrnd : ∀ id ∈ order, (rnd id).Ok 19)
    (t0 : TestRand taCtx) (t : ℕ → TestRand taCtx) :
    ∃ ok, testCKKS E prm 14 rnd order maxUsers t0 t = .ok ok :=
  C73_TestCKKS_runs taCtx_good taCtx_fits hfl (by rw [hsc]; norm_num) hcrs (by decide +kernel)
    (by decide +kernel) (by norm_num) (by norm_num) ta_digit (ta_by hsc hfl) hlen ho hrnd 14 t0 t

/-- **C73**, `TestCKKS` with the parameter set `PN14QP439`. -/
theorem C73_shipped_TestCKKS_PN14 {E : Encoder tbCtx (List ℂ)} (hlen : ∀ m sc, (E.decode m sc).length = 8192)
    {prm : CPar tbCtx} (hsc : prm.scale = 2 ^ 52) (hfl : prm.fl.Ok) (hcrs : CrsFor prm.crs [])
    {maxUsers : ℕ} {rnd : String → PartyRand tbCtx} {order : List String}
    (ho : order.Perm (userList maxUsers)) (hrnd : ∀ id ∈ order, (rnd id).Ok 19)
    (t0 : TestRand tbCtx) (t : ℕ → TestRand tbCtx) :
    ∃ ok, testCKKS E prm 13 rnd order maxUsers t0 t = .ok ok :=
  C73_TestCKKS_runs tbCtx_good tbCtx_fits hfl (by rw [hsc]; norm_num) hcrs (by decide +kernel)
    (by decide +kernel) (by norm_num) (by norm_num) tb_digit (tb_by hsc hfl) hlen ho hrnd 13 t0 t

/-- **C73**, `BenchmarkMKCKKS` with the parameter set `PN15QP880`. -/
theorem C73_shipped_Benchmark {E : Encoder taCtx (List ℂ)}
    {prm : CPar taCtx} (hsc : prm.scale = 2 ^ 54) (hfl : prm.fl.Ok) (hcrs : CrsFor prm.crs [])
    {maxUsers : ℕ} {rnd : String → PartyRand taCtx} {order : List String}
    (ho : order.Perm (userList maxUsers)) (hrnd : ∀ id ∈ order, (rnd id).Ok 19)
    (d : ℕ → ℕ → Draw taCtx) (π πm : ℕ → ℕ → Sched) (iters : ℕ → ℕ) :
    benchmarkMKCKKS E prm rnd order maxUsers d π πm iters = .ok () :=
  C73_BenchmarkMKCKKS taCtx_good taCtx_fits hfl (by rw [hsc]; norm_num) hcrs (by decide +kernel)
    (by decide +kernel) (by norm_num) (by norm_num) ta_digit (ta_by hsc hfl) ho hrnd d π πm iters

/-- **C73**, `BenchmarkMKCKKS` with the parameter set `PN14QP439`. -/
theorem C73_shipped_Benchmark_PN14 {E : Encoder tbCtx (List ℂ)}
    {prm : CPar tbCtx} (hsc : prm.scale = 2 ^ 52) (hfl : prm.fl.Ok) (hcrs : CrsFor prm.crs [])
    {maxUsers : ℕ} {rnd : String → PartyRand tbCtx} {order : List String}
    (ho : order.Perm (userList maxUsers)) (hrnd : ∀ id ∈ order, (rnd id).Ok 19)
    (d : ℕ → ℕ → Draw tbCtx) (π πm : ℕ → ℕ → Sched) (iters : ℕ → ℕ) :
    benchmarkMKCKKS E prm rnd order maxUsers d π πm iters = .ok () :=
  C73_BenchmarkMKCKKS tbCtx_good tbCtx_fits hfl (by rw [hsc]; norm_num) hcrs (by decide +kernel)
    (by decide +kernel) (by norm_num) (by norm_num) tb_digit (tb_by hsc hfl) ho hrnd d π πm iters

/-- **C73**, `TestCKKS` with the parameter set `PN15QP880` can fail: whatever the common reference string,
the secrets, the visiting order and all samples of the products are, there are samples of the public keys
and of the first encryptions within the samplers' bounds for which it does. -/
theorem C73_shipped_TestCKKS_can_fail {prm : CPar taCtx} (hsc : prm.scale = 2 ^ 54) (hfl : prm.fl.Ok)
    (hcrs : CrsFor prm.crs []) {maxUsers : ℕ} (h1 : 1 ≤ maxUsers) {rnd : String → PartyRand taCtx}
    {order : List String} (ho : order.Perm (userList maxUsers)) (hrnd : ∀ id ∈ order, (rnd id).Ok 19)
    (π : ℕ → Sched) (πo π' : Sched) :
    ∃ rnd' : String → PartyRand taCtx, (∀ id, (rnd' id).s = (rnd id).s) ∧
      (∀ id ∈ order, (rnd' id).Ok 19) ∧
    ∃ d : ℕ → Draw taCtx, (∀ k, (d k).Unit ∧ (d k).rnd.u.Bdd 1 ∧ (d k).rnd.e0.Bdd 19 ∧
      (d k).rnd.e1.Bdd 19) ∧
    ∀ t, testCKKS (stdEncoder taCtx) prm 14 rnd' order maxUsers ⟨d, π, πo, π'⟩ t = .ok false := by
  have hne : userList maxUsers ≠ [] := by
    intro h
    have := congrArg List.length h
    simp [userList] at this
    omega
  obtain ⟨rnd', r1, r2, d, hd, kb, enc, dec, e1, e2⟩ := C72_shipped_can_fail hsc hcrs hrnd
    (fun id h => ho.mem_iff.mpr h) hne (fun h => userList_ne_zero maxUsers (ho.mem_iff.mp h)) π
  refine ⟨rnd', r1, r2, d, hd, fun t => ?_⟩
  obtain ⟨kb', enc', dec', ok0, ok, f1, f2, f3, m, h⟩ := C73_TestCKKS_verdict (E := stdEncoder taCtx)
    taCtx_good taCtx_fits hfl (by rw [hsc]; norm_num) hcrs (by decide +kernel) (by decide +kernel)
    (by norm_num) (by norm_num) ta_digit (ta_by hsc hfl) (fun m sc => by simp [stdEncoder]) ho r2 14
    ⟨d, π, πo, π'⟩ t
  obtain rfl : kb = kb' := Except.ok.inj (e1.symm.trans f1)
  have : ok0 = false := by
    have := e2.symm.trans f2
    simp only [Except.ok.injEq, Prod.mk.injEq] at this
    exact this.2.2.symm
  rw [f3]
  cases ok with
  | false => rfl
  | true => rw [this] at h; exact absurd (h.mp rfl).1 (by decide)

/-- The decoder that gives `5` for everything of another scale than that of fresh ciphertexts. -/
def badEncoder (sc0 : ℚ) : Encoder taCtx (List ℂ) where
  encode := (stdEncoder taCtx).encode
  decode m sc := if sc = sc0 then (stdEncoder taCtx).decode m sc else List.replicate (taCtx.N / 2) 5

/-- C73, with this decoder `TestCKKS` fails as soon as there are two users. -/
example {prm : CPar taCtx} (hsc : prm.scale = 2 ^ 54) (hfl : prm.fl = Fl.exact)
    (hcrs : CrsFor prm.crs []) {rnd : String → PartyRand taCtx} {order : List String}
    (ho : order.Perm (userList 4)) (hrnd : ∀ id ∈ order, (rnd id).Ok 19)
    (t0 : TestRand taCtx) (t : ℕ → TestRand taCtx) :
    testCKKS (badEncoder (2 ^ 54)) prm 14 rnd order 4 t0 t = .ok false := by
  have hps : prodScale prm.fl taCtx.q taCtx.lq prm.scale prm.scale ≠ 2 ^ 54 := by
    have h1 : taCtx.q taCtx.lq = 0x3ffffffed30001 := by decide +kernel
    rw [hfl, hsc]
    unfold prodScale
    rw [C17_scale_exact, prod_range_succ, prod_range_zero, one_mul, Nat.sub_zero, h1]
    show (2 ^ 54 * 2 ^ 54 : ℚ) / _ ≠ _
    norm_num
  refine C73_TestCKKS_sees taCtx_good taCtx_fits (hfl ▸ Fl.exact_ok) (by rw [hsc]; norm_num) hcrs
    (by decide +kernel) (by decide +kernel) (by norm_num) (by norm_num) ta_digit
    (ta_by hsc (hfl ▸ Fl.exact_ok)) (fun m sc => by
      unfold badEncoder
      dsimp only
      split
      · simp [stdEncoder]
      · exact List.length_replicate)
    ho hrnd (i := 0) (j := 0) (by norm_num) (by decide) (fun m h => ?_) t0 t
  unfold badEncoder at h
  dsimp only at h
  rw [if_neg hps, List.getD_replicate _ (by decide)] at h
  have h2 := h.1
  rw [hsc] at h2
  simp only [mulTarget, sq] at h2
  norm_num [Complex.mul_re, Complex.mul_im] at h2

/-- `userList` with the default of the flag `-n`. -/
example : userList 4 = ["user0", "user1", "user2", "user3"] := by decide

/-- C73, a visiting order of `genTestParams`. -/
example : (["user2", "user0", "user3", "user1"] : List String).Perm (userList 4) := by decide

/-- C73, with the keys `genTestParams` makes for `PN15QP880`, `testEvaluatorRot`,
`testEvaluatorRotHoisted`, `testEvaluatorConj` and `benchRotate` would panic. -/
example {prm : CPar taCtx} (hsc : prm.scale = 2 ^ 54) (hfl : prm.fl.Ok) (hcrs : CrsFor prm.crs [])
    {rnd : String → PartyRand taCtx} (hr : ∀ id ∈ userList 4, (rnd id).Ok 19) {d : ℕ → Draw taCtx}
    (hd : ∀ k, Calm (d k)) (draw : ℕ) (π : ℕ → Sched) (πd πh πo π' : Sched) :
    ∃ kb, genTestParams prm.crs rnd (userList 4) = .ok kb ∧
      (testEvaluatorRot 1 kb.rtkSet (stdEncoder taCtx) prm 14 kb (CEnc.new prm) (CDec.new prm) Ev.new
        (userList 4) d π πd πo π').panics ∧
      (testEvaluatorRotHoisted draw kb.rtkSet (stdEncoder taCtx) prm 14 kb (CEnc.new prm) (CDec.new prm)
        Ev.new (userList 4) d π πd πh πo π').panics ∧
      (testEvaluatorConj KeySet.new (stdEncoder taCtx) prm 14 kb (CEnc.new prm) (CDec.new prm) Ev.new
        (userList 4) d π πo π').panics ∧
      (benchRotate (stdEncoder taCtx) prm kb.pkSet kb.rtkSet (userList 4) d π π 1 (CEnc.new prm)
        Ev.new).panics := by
  have hs : 0 < prm.scale := by rw [hsc]; norm_num
  obtain ⟨kb, e1, -, -, R⟩ := ready taCtx_good (logN := 15) rfl (by norm_num) hfl hs (by decide +kernel)
    (by decide +kernel) hcrs hr (by decide) (userList_ne_zero 4) hd 4
  exact ⟨kb, e1,
    C73_testEvaluatorRot_panics R.good hfl (by decide) (by decide) e1 R.keys R.encOk R.evOk R.usersIn
      (by decide +kernel) 14 _ d π πd πo π',
    C73_testEvaluatorRotHoisted_panics R.good hfl (by decide +kernel) (by norm_num) (by decide) e1 R.keys
      R.encOk R.evOk R.usersIn draw _ d π πd πh πo π',
    C73_testEvaluatorConj_panics R.good hfl R.keys R.encOk R.evOk R.usersIn 14 _ d π πo π',
    C73_benchRotate_panics R.good hfl (by decide) e1 R.keys R.encOk R.evOk R.usersIn d π π one_pos⟩

/-! ## Ring degree 32 -/

theorem sm_kit {prm : CPar smCtx} (hsc : prm.scale = 2 ^ 38) (hfl : prm.fl = Fl.exact)
    (hcrs : CrsFor prm.crs []) {rnd : String → PartyRand smCtx} {users : List String}
    (hr : ∀ id ∈ users, (rnd id).Ok 19) {kb : KeyBag smCtx} (h1 : RlkReach kb.rlkSet)
    (h2 : ∀ id ∈ users, PartyKeys prm.crs [] kb (rnd id) 19 id) :
    RlkFor kb.rlkSet users.toFinset kb.rk ∧
      MulKit prm kb.rk (fun id => (rnd id).s) users smCtx.lq prm.scale (2 * 0x80000000080001) 1 19 := by
  obtain ⟨a, u, hu, k1, k2, k3⟩ := genTestParams_relin hcrs hr h1 h2
  exact ⟨k1, smCtx_fits, by norm_num, by norm_num, by norm_num, sm_digit,
    by rw [hfl, hsc]; exact sm_by, _, _, _, _, _, _, hu, k2, k3⟩

/-- C73, the benchmarks with two users: the products are encryptions of `6i` and `-18i`. -/
example {prm : CPar smCtx} (hsc : prm.scale = 2 ^ 38) (hfl : prm.fl = Fl.exact) (hcrs : CrsFor prm.crs [])
    {rnd : String → PartyRand smCtx} (hr : ∀ id, (rnd id).Ok 19)
    {d : ℕ → Draw smCtx} (hd : ∀ k, Calm (d k)) (π πm : ℕ → Sched) (n : ℕ) :
    ∃ kb η, genTestParams prm.crs rnd (userList 2) = .ok kb ∧
      (∃ enc ev rlk rs, benchMulAndRelin (stdEncoder smCtx) prm kb.pkSet (userList 2) d π πm n
          (CEnc.new prm) Ev.new kb.rlkSet = .ok (enc, ev, rlk, rs) ∧ rs.length = n ∧
        ∀ r ∈ rs, Sees (fun id => (rnd id).s) (userList 2) 19
          (prodScale prm.fl smCtx.q smCtx.lq prm.scale prm.scale) r (fun _ => 6 * Complex.I) η) ∧
      (∃ enc ev rs, benchMulAndRelinHoisted (stdEncoder smCtx) prm kb.pkSet (userList 2) d π πm n
          (CEnc.new prm) Ev.new kb.rlkSet = .ok (enc, ev, rs) ∧ rs.length = n ∧
        ∀ r ∈ rs, Sees (fun id => (rnd id).s) (userList 2) 19
          (prodScale prm.fl smCtx.q smCtx.lq prm.scale prm.scale) r (fun _ => 6 * Complex.I) η) ∧
      ∃ η' enc ev rs, benchSquareHoisted (stdEncoder smCtx) prm kb.pkSet (userList 2) d π πm n
          (CEnc.new prm) Ev.new kb.rlkSet = .ok (enc, ev, rs) ∧ rs.length = n ∧
        ∀ r ∈ rs, Sees (fun id => (rnd id).s) (userList 2) 19
          (prodScale prm.fl smCtx.q smCtx.lq prm.scale prm.scale) r (fun _ => -18 * Complex.I) η' := by
  have hs : 0 < prm.scale := by rw [hsc]; norm_num
  obtain ⟨kb, e1, h1, h2, R⟩ := ready smCtx_good (logN := 5) rfl (by norm_num) (hfl ▸ Fl.exact_ok) hs
    (by decide +kernel) (by decide +kernel) hcrs (users := userList 2) (fun id _ => hr id)
    (by decide) (userList_ne_zero 2) hd 11
  obtain ⟨k1, K⟩ := sm_kit hsc hfl hcrs (fun id _ => hr id) h1 h2
  obtain ⟨enc, ev, rlk, rs, g1, g2, g3⟩ := C73_benchMulAndRelin R (by norm_num) K k1 π πm n
  obtain ⟨enc', ev', rs', g1', g2', g3'⟩ := C73_benchMulAndRelinHoisted R (by norm_num) (by decide) K k1
    π πm n
  obtain ⟨enc2, ev2, rs2, f1, f2, f3⟩ := C73_benchSquareHoisted R (by norm_num) K k1 π πm n
  have hl : (userList 2).length = 2 := rfl
  have e6 : 2 * (((userList 2).length : ℂ) ^ 2 - 1) * Complex.I = 6 * Complex.I := by
    rw [hl]; push_cast; ring
  have e18 : -2 * (((userList 2).length : ℂ) + 1) ^ 2 * Complex.I = -18 * Complex.I := by
    rw [hl]; push_cast; ring
  rw [e6] at g3 g3'
  rw [e18] at f3
  exact ⟨kb, _, e1, ⟨enc, ev, rlk, rs, g1, g2, g3⟩, ⟨enc', ev', rs', g1', g2', g3'⟩, _, enc2, ev2, rs2,
    f1, f2, f3⟩

theorem sm_mulEta4 : mulEta smCtx 4 (2 * 0x80000000080001) 1 19 smCtx.lq ≤ 2 ^ 51 := by
  have h1 : (32 * mulNoise smCtx 20 4 4 (2 * 0x80000000080001) (2 * 0x80000000080001)
      (2 * 0x80000000080001) 1 19 : ℤ) ≤ 2 ^ 50 * smCtx.P := by decide +kernel
  have h2 : (32 * rescaleErr smCtx 20 1 4 1 : ℤ) ≤ 2 ^ 50 := by decide +kernel
  have hP : (0 : ℝ) < smCtx.P := by exact_mod_cast smCtx_good.P_pos
  unfold mulEta
  rw [sm_N]
  have h1' : ((32 : ℝ) * (mulNoise smCtx 20 4 4 (2 * 0x80000000080001) (2 * 0x80000000080001)
      (2 * 0x80000000080001) 1 19 : ℤ)) / smCtx.P ≤ 2 ^ 50 := by
    rw [div_le_iff₀ hP]; exact_mod_cast h1
  have h2' : (32 : ℝ) * (rescaleErr smCtx 20 1 4 1 : ℤ) ≤ 2 ^ 50 := by exact_mod_cast h2
  exact (add_le_add h1' h2').trans (by norm_num)

/-- C73, all of `TestCKKS` with four users (the default of `-n`): encryption and decryption, then the
product with two and with four users, pass. -/
example {prm : CPar smCtx} (hsc : prm.scale = 2 ^ 38) (hfl : prm.fl = Fl.exact) (hcrs : CrsFor prm.crs [])
    {rnd : String → PartyRand smCtx} (hr : ∀ id, (rnd id).Ok 19) {order : List String}
    (ho : order.Perm (userList 4)) {t0 : TestRand smCtx} {t : ℕ → TestRand smCtx}
    (hd0 : ∀ k, Calm (t0.d k)) (hd : ∀ n k, Calm ((t n).d k)) :
    testCKKS (stdEncoder smCtx) prm 4 rnd order 4 t0 t = .ok true := by
  have hs : 0 < prm.scale := by rw [hsc]; norm_num
  have hscR : (prm.scale : ℝ) = 2 ^ 38 := by rw [hsc]; norm_num
  have hq : (0x4000720001 : ℝ) = ((smCtx.q smCtx.lq : ℕ) : ℝ) := by
    norm_num [smCtx, pnQ, Ctx.lq]
  have hps : prodScale prm.fl smCtx.q smCtx.lq prm.scale prm.scale = 2 ^ 76 / 0x4000720001 := by
    rw [hfl, hsc]
    unfold prodScale
    rw [C17_scale_exact]
    norm_num [prod_range_succ, smCtx, pnQ, Ctx.lq, Fl.exact]
  have hsc' : ((2 ^ 76 / 0x4000720001 : ℚ) : ℝ) = 2 ^ 76 / 0x4000720001 := by push_cast; rfl
  have hcard : order.toFinset.card = 4 := by
    rw [show order.toFinset = (userList 4).toFinset from List.toFinset_eq_of_perm _ _ ho]; decide
  refine C73_TestCKKS_pass (logN := 5) rfl (by norm_num) smCtx_good smCtx_fits (hfl ▸ Fl.exact_ok) hs hcrs
    (B := 19) (D := 2 * 0x80000000080001) (by decide +kernel) (by decide +kernel) (by norm_num)
    (by norm_num) sm_digit (by rw [hfl, hsc]; exact sm_by)
    (stdEncoder_accurate (logN := 5) rfl (by norm_num) hs 11) ho (fun id _ => hr id)
    (fun k => (hd0 k).unit) (fun k id _ j _ => (hd0 k).noise (hr id) j)
    (fun n k id _ j _ => (hd n k).noise (hr id) j) (by norm_num) (by rw [sm_N, hscR]; norm_num) ?_
    (by rw [sm_N, hscR]; norm_num) hps.symm ?_ (η := 65000 / 2 ^ 38) (fun k hk => ?_) (by norm_num)
    (by rw [hscR]; norm_num)
  · rw [hscR]
    calc (2 * (2 ^ 38 * 11) : ℝ) = ((2 * (2 ^ 38 * 11) : ℕ) : ℝ) := by norm_num
      _ < _ := by exact_mod_cast sm_q.1
  · calc (2 * (((2 ^ 76 / 0x4000720001 : ℚ) : ℝ) * 11) : ℝ) ≤ ((2 * (2 ^ 38 * 11) : ℕ) : ℝ) := by
          rw [hsc']; norm_num
      _ < _ := by exact_mod_cast sm_q.2
  · unfold prodErr
    rw [hcard, sm_N, hscR, hsc', ← hq]
    have h1 : (0x4000720001 : ℝ) * (2 ^ 76 / 0x4000720001) = 2 ^ 76 := by norm_num
    rw [h1]
    have := div_le_div_of_nonneg_right sm_mulEta4 (show (0 : ℝ) ≤ 2 ^ 76 by positivity)
    refine (add_le_add_right this _).trans ?_
    interval_cases k <;> norm_num

/-- C73: with one user the hoisted benchmark stops at `ctList[1]`. -/
example {prm : CPar smCtx} (pkSet : KeySet (PublicKey smCtx)) (d : ℕ → Draw smCtx) (π πm : ℕ → Sched)
    (rlk : RlkSet smCtx) : (benchMulAndRelinHoisted (stdEncoder smCtx) prm pkSet (userList 1) d π πm 5
      (CEnc.new prm) Ev.new rlk).panics :=
  C73_benchMulAndRelinHoisted_panics pkSet (by decide) d π πm 5 _ _ rlk

/-! ## Missing keys -/

/-- Alice's rotation key only. -/
def exRkAlice : RotationKeySet (RotKey exCtx) := RotationKeySet.new.add RotKey.id RotKey.rotIdx (exRk "alice")

theorem exRkAlice_bob : ¬ RotHas exCrs exRkAlice "bob" 1 := by
  rintro ⟨-, key, hk⟩
  have ha : (exRk "alice").id = "alice" := (exRot "alice").choose_spec.2.1
  unfold exRkAlice RotationKeySet.add RotationKeySet.new RotationKeySet.get at hk
  simp only [ha] at hk
  cases hk

/-- C73: a ciphertext of Alice and Bob is not rotated with Alice's key alone, but with both. -/
example : (Ev.new.RotateNew exPrm exAB (-3) exRkAlice exRev).panics ∧
    ∃ x, Ev.new.RotateNew exPrm exAB (-3) exRkSet exRev = .ok x := by
  constructor
  · exact C73_RotateNew_panics (by decide) Ev.new (id := "bob")
      (by rw [show exAB.ct.parties = _ from exCtAB_parties]; decide) (idx := 1)
      (by
        rw [exSlot]
        have : exPrm.crs.has ((1 : ℕ) : ℤ) = true := by
          rw [GoMap.has]; erw [exCrs_get 1 (by decide)]; rfl
        exact ⟨one_ne_zero, by rw [if_pos this]⟩) exRkAlice_bob exRev
  · refine (C73_RotateNew_iff exCtx_N (by norm_num) exCtx_good Ev.new_ok (L := 3) (by decide)
      exCtAB_wf ⟨"bob", by rw [show exAB.ct.parties = _ from exCtAB_parties]; decide⟩ (-3) exRkSet
      exRev).mpr fun id hid idx hn => ?_
    rw [exNeeds hn]
    exact ⟨⟨_, exCrs_get 1 (by decide)⟩, _,
      exRkSet_get (by rwa [show exAB.ct.parties = _ from exCtAB_parties] at hid)⟩

/-- C73: hoisted rotation by `-3` needs both keys as well, rotation by `6` none. -/
example {H : HoistedCt exCtx} (hH : IsHoisted 3 exAB.ct H) :
    (Ev.new.RotateHoistedNew exPrm exAB (-3) H exRkAlice exRev).panics ∧
    (∃ x, Ev.new.RotateHoistedNew exPrm exAB (-3) H exRkSet exRev = .ok x) ∧
    ∃ x, Ev.new.RotateHoistedNew exPrm exAB 6 H RotationKeySet.new exRev = .ok x := by
  have hne : exAB.ct.parties.Nonempty :=
    ⟨"bob", by rw [show exAB.ct.parties = _ from exCtAB_parties]; decide⟩
  refine ⟨?_, ?_, ?_⟩
  · exact C73_RotateHoistedNew_panics (by decide) Ev.new (id := "bob")
      (by rw [show exAB.ct.parties = _ from exCtAB_parties]; decide) (by rw [exSlot]; decide)
      (by rw [exSlot]; exact exRkAlice_bob) exRev
  · refine (C73_RotateHoistedNew_iff exCtx_N (by norm_num) exCtx_good Ev.new_ok (L := 3) (by decide)
      exCtAB_wf hne (-3) hH exRkSet exRev).mpr (Or.inr fun id hid => ?_)
    rw [exSlot]
    exact ⟨⟨_, exCrs_get 1 (by decide)⟩, _,
      exRkSet_get (by rwa [show exAB.ct.parties = _ from exCtAB_parties] at hid)⟩
  · exact (C73_RotateHoistedNew_iff exCtx_N (by norm_num) exCtx_good Ev.new_ok (L := 3) (by decide)
      exCtAB_wf hne 6 hH RotationKeySet.new exRev).mpr (Or.inl (by decide))

/-- C73: conjugation needs the keys of both. -/
example : (Ev.new.ConjugateNew exPrm exAB KeySet.new exRev).panics ∧
    ∃ x, Ev.new.ConjugateNew exPrm exAB exCkSet exRev = .ok x := by
  constructor
  · exact C73_ConjugateNew_panics Ev.new (id := "bob")
      (by rw [show exAB.ct.parties = _ from exCtAB_parties]; decide)
      (by rintro ⟨-, key, hk⟩; cases hk) exRev
  · exact (C73_ConjugateNew_iff exCtx_N exCtx_good Ev.new_ok (L := 3) (by decide)
      exCtAB_wf ⟨"bob", by rw [show exAB.ct.parties = _ from exCtAB_parties]; decide⟩ exCkSet
      exRev).mpr ⟨by decide, ⟨_, exCrs_get (-2) (by decide)⟩, fun id hid =>
        ⟨_, exCkSet_get (by rwa [show exAB.ct.parties = _ from exCtAB_parties] at hid)⟩⟩

end MK.CT
