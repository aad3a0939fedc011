import Verif.Props.CBench

/-!
# The whole of `TestCKKS` (C73)

`testCKKS` runs its tests on one test context: encryptor, decryptor, evaluator and relinearization keys
go from test to test.  The decryptor matters: its pool drops to the level of the product in the first
`testEvaluatorMul` and stays there.
-/

noncomputable section

namespace MK.CT

open Finset Lr

variable {C : Ctx} {E : Encoder C (List ℂ)} {prm : CPar C} {kb : KeyBag C}
  {s e : String → Nega C.N ℤ} {S : List String} {enc : CEnc C} {dec : CDec C} {ev : Ev C}
  {users : List String} {d : ℕ → Draw C} {M ε δ W : ℝ}

/-- `testMulRun` gives the verdict of `testEvaluatorMul`. -/
theorem testMulRun_verdict (logSlots : ℕ) (π : ℕ → Sched) (πo π' : Sched) :
    testEvaluatorMul E prm logSlots kb enc dec ev users d π πo π' =
      Prod.snd <$> testMulRun E prm logSlots kb users d π πo π' (enc, dec, ev, kb.rlkSet) := by
  unfold testEvaluatorMul testSum testMulRun
  dsimp only
  cases h1 : vectors E prm kb.pkSet ⟨0.1 / users.length, 1 / users.length⟩
    ⟨0.1 / users.length, 1 / users.length⟩ d 0 users enc with
  | error p => rfl
  | ok r =>
    obtain ⟨enc', ms, cts⟩ := r
    cases cts with
    | nil => rfl
    | cons ct l =>
      simp only [Go.ok_bind]
      cases h2 : sumLoop prm π 0 (ct :: l) ev ct ms with
      | error p => rfl
      | ok r =>
        obtain ⟨ev', ct', ms'⟩ := r
        simp only [Go.ok_bind]
        cases h3 : ev'.MulRelinNew prm ct' ct' true kb.rlkSet πo with
        | error p => rfl
        | ok r =>
          obtain ⟨ev2, rlk2, res⟩ := r
          simp only [Go.ok_bind, Go.pure_eq]
          cases h4 : dec.Decrypt E res kb.skSet π' with
          | error p => rfl
          | ok r =>
            obtain ⟨dec2, out⟩ := r
            simp only [Go.ok_bind]
            split <;> rfl

/-! ## No panic -/

/-- Every message of the test vectors has one number for every slot. -/
theorem vectors_msgs (pkSet : KeySet (PublicKey C)) (a b : ℂ) (d : ℕ → Draw C) (users : List String) :
    ∀ (i : ℕ) (enc : CEnc C), Go.Post (vectors E prm pkSet a b d i users enc)
      fun r => r.2.1.length = users.length ∧ ∀ m ∈ r.2.1, m.length = C.N / 2 := by
  induction users with
  | nil =>
    intro i enc r hr
    obtain rfl := Except.ok.inj hr
    simp
  | cons id l ih =>
    intro i enc
    unfold vectors
    refine Go.Post.bind (Q := fun r => r.2.1.length = C.N / 2) ?_ fun r hr =>
      Go.Post.bind (ih _ _) fun r' hr' => Go.Post.pure ⟨by simp [hr'.1], fun m hm => ?_⟩
    · unfold newTestVectors
      refine Go.Post.bind' fun _ => Go.Post.bind' fun _ => Go.Post.pure ?_
      exact testMsg_length _ _ _
    · rcases List.mem_cons.mp hm with rfl | h
      exacts [hr, hr'.2 m h]

theorem bump_len (msgs : List (List ℂ)) (i : ℕ) :
    ((bump msgs i).getD 0 []).length = (msgs.getD 0 []).length := by
  unfold bump
  cases msgs with
  | nil => rfl
  | cons m l => simp

theorem sumLoop_len (π : ℕ → Sched) (cts : List (CCt C)) :
    ∀ (i : ℕ) (ev : Ev C) (ct : CCt C) (msgs : List (List ℂ)),
      Go.Post (sumLoop prm π i cts ev ct msgs)
        fun r => (r.2.2.getD 0 []).length = (msgs.getD 0 []).length := by
  induction cts with
  | nil =>
    intro i ev ct msgs r hr
    obtain rfl := Except.ok.inj hr
    rfl
  | cons c l ih =>
    intro i ev ct msgs
    unfold sumLoop
    refine Go.Post.bind' fun r => ?_
    intro a ha
    rw [ih _ _ _ _ a ha, bump_len]

theorem vectors_const (pkSet : KeySet (PublicKey C)) (z : ℂ) (d : ℕ → Draw C) (users : List String) :
    ∀ (i : ℕ) (enc : CEnc C), Go.Post (vectors E prm pkSet z z d i users enc)
      fun r => r.2.1 = List.replicate users.length (List.replicate (C.N / 2) z) := by
  induction users with
  | nil =>
    intro i enc r hr
    obtain rfl := Except.ok.inj hr
    rfl
  | cons id l ih =>
    intro i enc
    unfold vectors
    refine Go.Post.bind (Q := fun r => r.2.1 = List.replicate (C.N / 2) z) ?_ fun r hr =>
      Go.Post.bind (ih _ _) fun r' hr' => Go.Post.pure ?_
    · unfold newTestVectors
      refine Go.Post.bind' fun _ => Go.Post.bind' fun _ => Go.Post.pure ?_
      exact testMsg_const _ _
    · show r.2.1 :: r'.2.1 = _
      rw [hr, hr', List.length_cons, List.replicate_succ]

theorem sumLoop_msgs {n t : ℕ} {z : ℂ} (π : ℕ → Sched) (cts : List (CCt C)) :
    ∀ (i : ℕ) (ev : Ev C) (ct : CCt C), i + cts.length = n →
      Go.Post (sumLoop prm π i cts ev ct (msgsAt n t (((i + 1 : ℕ) : ℂ) * z) z))
        fun r => r.2.2 = msgsAt n t (((n + 1 : ℕ) : ℂ) * z) z := by
  induction cts with
  | nil =>
    intro i ev ct hn r hr
    obtain rfl := Except.ok.inj hr
    obtain rfl : i = n := by simpa using hn
    rfl
  | cons c l ih =>
    intro i ev ct hn
    unfold sumLoop
    refine Go.Post.bind' fun r => ?_
    dsimp only
    have ez : ((i + 1 : ℕ) : ℂ) * z + z = ((i + 1 + 1 : ℕ) : ℂ) * z := by push_cast; ring
    rw [bump_msgsAt (by simp only [List.length_cons] at hn; omega) _ _ (by rintro rfl; simp), ez]
    exact ih (i + 1) _ _ (by simp only [List.length_cons] at hn; omega)

theorem msgsAt_start {n t : ℕ} (hn : 0 < n) (z : ℂ) :
    List.replicate n (List.replicate t z) = msgsAt n t (((0 + 1 : ℕ) : ℂ) * z) z := by
  obtain ⟨n, rfl⟩ : ∃ k, n = k + 1 := ⟨n - 1, by omega⟩
  unfold msgsAt
  simp [List.replicate_succ]

/-- Two numbers are within the tolerance of `b` bits of each other in both parts. -/
def near (prm : CPar C) (b : ℕ) (x y : ℂ) : Prop :=
  |(x - y).re| ≤ 2 ^ b / prm.scale ∧ |(x - y).im| ≤ 2 ^ b / prm.scale

/-- The square that `testEvaluatorMul` expects with `n` users. -/
def mulTarget (n : ℕ) : ℂ := (((n + 1 : ℕ) : ℂ) * ⟨0.1 / n, 1 / n⟩) ^ 2

/-- `testEvaluatorMul` does not panic and leaves the test context in order, whatever the encoder's
accuracy, the samples and the orders are; afterwards the decryptor's pool has the level of the product.
It passes exactly if the decoding of some polynomial `m` at the scale of the product is close to the
square of `(n+1) z` for `n` users. -/
theorem testMulRun_ok (hC : C.Good) (hfl : prm.fl.Ok) (hs : 0 < prm.scale) (hK : Keys kb s e S)
    (hlen : ∀ m sc, (E.decode m sc).length = C.N / 2)
    {enc : CEnc C} (he : EncOk prm enc) {dec : CDec C} (hd : dec.pool.isNTT = false) {ev : Ev C}
    (hok : ev.Ok) {users : List String} (hu : ∀ id ∈ users, id ∈ S) (hne : users ≠ []) (d : ℕ → Draw C)
    {rk : String → RelinKey C} {D T B : ℤ} (K : MulKit prm rk s S C.lq prm.scale D T B)
    {rlk : RlkSet C} (hrk : RlkFor rlk S.toFinset rk) (logSlots : ℕ) (π : ℕ → Sched) (πo π' : Sched) :
    ∃ enc' dec' ev' rlk' b, testMulRun E prm logSlots kb users d π πo π' (enc, dec, ev, rlk) =
        .ok ((enc', dec', ev', rlk'), b) ∧ EncOk prm enc' ∧ dec'.pool.isNTT = false ∧
      dec'.pool.level = min (C.lq - 1) dec.pool.level ∧ ev'.Ok ∧ RlkFor rlk' S.toFinset rk ∧
      ∃ m, b = true ↔ ∀ j < C.N / 2, near prm (logSlots + 12)
        ((E.decode m (prodScale prm.fl C.q C.lq prm.scale prm.scale)).getD j 0)
        (mulTarget users.length) := by
  obtain ⟨enc', ms, cts, x, e1, he', hl, hx, hp⟩ := vectors_exact (E := E) (prm := prm) hC hK
    ⟨0.1 / users.length, 1 / users.length⟩ d hu he
  obtain ⟨hm1, hm2⟩ := vectors_msgs (E := E) (prm := prm) _ _ _ _ _ _ _ _ e1
  cases cts with
  | nil => exact absurd (List.length_eq_zero_iff.mp hl.symm) hne
  | cons c l =>
    obtain ⟨ev1, r, ms', e2, hok1, ⟨y, θ, hy⟩, hr⟩ := sumLoop_keeps hC hfl π (c :: l)
      (fun c hc => ⟨_, _, hx c hc⟩) 0 ev c ms hok ⟨_, _, hx c (by simp)⟩ (hp c (by simp))
    have hlen0 : 0 < users.length := List.length_pos_iff.mpr hne
    have hms : ms' = msgsAt users.length (C.N / 2) (((users.length + 1 : ℕ) : ℂ) *
        ⟨0.1 / users.length, 1 / users.length⟩) ⟨0.1 / users.length, 1 / users.length⟩ := by
      refine sumLoop_msgs (prm := prm) π (c :: l) 0 ev c (by simpa using hl) (ev1, r, ms') ?_
      rw [← msgsAt_start hlen0, ← vectors_const (E := E) (prm := prm) _ _ _ _ _ _ _ e1]
      exact e2
    obtain ⟨X, hX⟩ := exists_bound y (C.N / 2)
    obtain ⟨ev2, rlk2, out, e3, hok2, hrk2, ho⟩ := hy.mul hC hfl hok1 hs hy hX hX K hrk true
      (fun _ => rfl) πo
    obtain ⟨m, hm, -⟩ := ho.val
    obtain ⟨dec', e4, d1, d2⟩ := C43_Decrypt hC E hd ho.wf.ragged ho.lt hK.keyed
      (fun id hid => hK.sk id (ho.parties id hid)) hm π'
    refine ⟨enc', dec', ev2, rlk2, ?_⟩
    unfold testMulRun
    simp only [e1, Go.ok_bind, e2, e3, e4, hlen, hms, msgsAt_zero hlen0, List.length_replicate, ne_eq,
      not_true_eq_false, if_false]
    refine ⟨_, rfl, he', d1, d2, hok2, hrk2, centre (C.qProd (min (C.lq - 1) dec.pool.level)) m, ?_⟩
    rw [checkC_iff hs, ho.scale]
    refine forall₂_congr fun j hj => ?_
    simp only [List.getD_replicate _ hj, near, mulTarget, sq]

theorem decLoop_ok (hC : C.Good) (hK : Keys kb s e S)
    (hlen : ∀ m sc, (E.decode m sc).length = C.N / 2) {L : ℕ} {sc : ℚ} (logSlots : ℕ) (π : ℕ → Sched)
    (ms : List (List ℂ)) (hms : ∀ m ∈ ms, m.length = C.N / 2) :
    ∀ (i : ℕ) (cts : List (CCt C)) (dec : CDec C), (∀ c ∈ cts, ∃ x η, Sees s S L sc c x η) →
      dec.pool.isNTT = false →
      ∃ dec' ok, decLoop E prm logSlots kb.skSet π i ms cts dec = .ok (dec', ok) ∧
        dec'.pool.isNTT = false ∧ min L dec'.pool.level = min L dec.pool.level := by
  induction ms with
  | nil => exact fun i cts dec _ hd => ⟨dec, true, by cases cts <;> rfl, hd, rfl⟩
  | cons m ms ih =>
    intro i cts dec hc hd
    cases cts with
    | nil => exact ⟨dec, true, rfl, hd, rfl⟩
    | cons c cts =>
      obtain ⟨x, η, hx⟩ := hc c (by simp)
      obtain ⟨v, hv, -⟩ := hx.val
      obtain ⟨dec1, e1, d1, l1⟩ := C43_Decrypt hC E hd hx.wf.ragged hx.lt hK.keyed
        (fun id hid => hK.sk id (hx.parties id hid)) hv (π i)
      have hck : ∀ v sc, checkRe prm logSlots m (E.decode v sc) =
          .ok ((List.range m.length).all fun j =>
            within prm logSlots 8 (m.getD j 0 - (E.decode v sc).getD j 0).re) := by
        intro v sc
        unfold checkRe
        rw [hlen, hms m (by simp), if_neg (lt_irrefl _)]
      simp only [decLoop, e1, Go.ok_bind, hck]
      split
      · obtain ⟨dec2, ok, e2, d2, l2⟩ := ih (fun m hm => hms m (by simp [hm])) (i + 1) cts dec1
          (fun c hc' => hc c (by simp [hc'])) d1
        exact ⟨dec2, ok, e2, d2, by rw [l2, l1]; omega⟩
      · exact ⟨dec1, false, rfl, d1, by rw [l1]; omega⟩

theorem vectors_exact' (hC : C.Good) (K : Keys kb s e S) (a b : ℂ) (d : ℕ → Draw C)
    {users : List String} (hu : ∀ id ∈ users, id ∈ S) {enc : CEnc C} (he : EncOk prm enc) :
    ∃ enc' ms cts, vectors E prm kb.pkSet a b d 0 users enc = .ok (enc', ms, cts) ∧
      EncOk prm enc' ∧ ∀ c ∈ cts, ∃ x η, Sees s S C.lq prm.scale c x η := by
  obtain ⟨enc', ms, cts, e1, he', l1, l2, hv⟩ := vectors_spec (E := E) (prm := prm) hC K a b d users hu
    0 enc he
  have hL : C.lq < C.nQ := by have := hC.nQ_pos; unfold Ctx.lq; omega
  refine ⟨enc', ms, cts, e1, he', fun c hc => ?_⟩
  obtain ⟨k, hk, rfl⟩ := List.getElem_of_mem hc
  obtain ⟨m, ct, g1, g2, v⟩ := hv k (users[k]'(by omega)) (List.getElem?_eq_getElem _)
  obtain rfl : cts[k] = ct := by rw [List.getElem?_eq_getElem hk] at g2; exact Option.some.inj g2
  refine ⟨fun j => islot _ j / prm.scale, 0, v.wf, hL, ?_, v.scale, _, v.carries, fun j _ => by
    rw [sub_self, norm_zero]⟩
  rw [v.parties]
  intro id hid
  rw [mem_singleton.mp hid]
  exact hu _ (List.getElem_mem _)

/-- `testEncAndDec` does not panic and leaves the test context in order. -/
theorem testEncAndDec_ok (hC : C.Good) (hK : Keys kb s e S)
    (hlen : ∀ m sc, (E.decode m sc).length = C.N / 2)
    {enc : CEnc C} (he : EncOk prm enc) {dec : CDec C} (hd : dec.pool.isNTT = false)
    {users : List String} (hu : ∀ id ∈ users, id ∈ S) (d : ℕ → Draw C) (logSlots : ℕ) (π : ℕ → Sched) :
    ∃ enc' dec' ok, testEncAndDec E prm logSlots kb enc dec users d π = .ok (enc', dec', ok) ∧
      EncOk prm enc' ∧ dec'.pool.isNTT = false ∧ min C.lq dec'.pool.level = min C.lq dec.pool.level := by
  obtain ⟨enc', ms, cts, e1, he', hx⟩ := vectors_exact' (E := E) (prm := prm) hC hK ⟨-1, -1⟩ ⟨1, 1⟩ d hu he
  obtain ⟨-, hm2⟩ := vectors_msgs (E := E) (prm := prm) _ _ _ _ _ _ _ _ e1
  obtain ⟨dec', ok, e2, d1, l1⟩ := decLoop_ok (E := E) (prm := prm) hC hK hlen logSlots π ms hm2 0 cts dec
    hx hd
  exact ⟨enc', dec', ok, by unfold testEncAndDec; simp only [e1, e2, Go.ok_bind, Go.pure_eq], he', d1, l1⟩

/-- The users of one test have keys, and there is one. -/
theorem take_users {maxUsers k : ℕ} {order : List String} (ho : order.Perm (userList maxUsers))
    (hk : 0 < k) (hmax : k ≤ maxUsers) : (∀ id ∈ (userList maxUsers).take k, id ∈ order) ∧
      (userList maxUsers).take k ≠ [] ∧ ((userList maxUsers).take k).length = k := by
  have hl : ((userList maxUsers).take k).length = k := by
    simp [userList, hmax]
  refine ⟨fun id hid => ho.mem_iff.mpr (List.mem_of_mem_take hid), ?_, hl⟩
  intro h
  rw [h] at hl
  simp at hl
  omega

/-- **C73 (`TestCKKS` runs).** For every encoder, parameter set whose moduli allow one rescaling of a
product, number of users, samples of key generation within their bounds, draws and orders, the body of
`TestCKKS` ends without panic: its tests only pass or fail. -/
theorem C73_TestCKKS_runs (hC : C.Good) (hF : C.Fits) (hfl : prm.fl.Ok) (hs : 0 < prm.scale)
    (hcrs : CrsFor prm.crs []) {B D : ℤ} (hq : 2 < C.q 0) (hB : 2 * B < C.q 0) (hB0 : 0 ≤ B) (hD0 : 0 ≤ D)
    (hD : digitMax C D)
    (hr : RescaleBy prm.fl C.q prm.scale (prm.fl.rnd (prm.scale * prm.scale)) C.lq 1)
    (hlen : ∀ m sc, (E.decode m sc).length = C.N / 2)
    {maxUsers : ℕ} {rnd : String → PartyRand C} {order : List String}
    (ho : order.Perm (userList maxUsers)) (hrnd : ∀ id ∈ order, (rnd id).Ok B) (logSlots : ℕ)
    (t0 : TestRand C) (t : ℕ → TestRand C) :
    ∃ ok, testCKKS E prm logSlots rnd order maxUsers t0 t = .ok ok := by
  have h0 : "0" ∉ order := fun h => userList_ne_zero maxUsers (ho.mem_iff.mp h)
  obtain ⟨kb, e1, hreach, hK, hpk⟩ := genTestParams_keys hC hq hB hcrs hrnd h0
  obtain ⟨a, u, hu, hrk, hrel, hbdd⟩ := genTestParams_relin hcrs hrnd hreach hpk
  have K : MulKit prm kb.rk (fun id => (rnd id).s) order C.lq prm.scale D 1 B :=
    ⟨hF, hD0, by norm_num, hB0, hD, hr, _, _, _, _, _, _, hu, hrel, hbdd⟩
  obtain ⟨enc1, dec1, ok1, e2, he1, hd1, -⟩ := testEncAndDec_ok (E := E) (prm := prm) hC hK hlen
    (encOk_new' prm) (dec := CDec.new prm) rfl (users := userList maxUsers)
    (fun id h => ho.mem_iff.mpr h) t0.d logSlots t0.π
  obtain ⟨st, e3, -⟩ := doubling_spec (max := maxUsers)
    (body := fun k (s : (CEnc C × CDec C × Ev C × RlkSet C) × Bool) => do
      let (st, b) ← testMulRun E prm logSlots kb ((userList maxUsers).take k) (t k).d (t k).π (t k).πo
        (t k).π' s.1
      return (st, s.2 && b))
    (P := fun s => EncOk prm s.1.1 ∧ s.1.2.1.pool.isNTT = false ∧ s.1.2.2.1.Ok ∧
      RlkFor s.1.2.2.2 order.toFinset kb.rk)
    (fun k st hk hmax hst => by
      obtain ⟨h1, h2, -⟩ := take_users ho hk hmax
      obtain ⟨⟨enc, dec, ev, rlk⟩, ok⟩ := st
      obtain ⟨p1, p2, p3, p4⟩ := hst
      obtain ⟨enc', dec', ev', rlk', b, g1, g2, g3, -, g4, g5, -⟩ := testMulRun_ok (E := E) hC hfl hs hK hlen
        p1 p2 p3 h1 h2 (t k).d K p4 logSlots (t k).π (t k).πo (t k).π'
      exact ⟨((enc', dec', ev', rlk'), ok && b), by simp only [g1, Go.ok_bind, Go.pure_eq], g2, g3, g4, g5⟩)
    2 ((enc1, dec1, Ev.new, kb.rlkSet), ok1) ⟨he1, hd1, Ev.new_ok, hrk⟩
  refine ⟨st.2, ?_⟩
  unfold testCKKS
  rw [e1, Go.ok_bind]
  simp only [e2, Go.ok_bind]
  rw [e3]
  rfl

/-- **C73 (`TestCKKS` passes).** If the noise of every encryption is at most `W` in every slot and the
tolerances of the assertions pay for it, all assertions of `TestCKKS` hold — also those made after the
decryptor's pool has dropped to the level of the first product. -/
theorem C73_TestCKKS_pass {logN : ℕ} (hN : C.N = 2 ^ logN) (hlog : 1 ≤ logN) (hC : C.Good) (hF : C.Fits)
    (hfl : prm.fl.Ok) (hs : 0 < prm.scale)
    (hcrs : CrsFor prm.crs []) {B D : ℤ} (hq : 2 < C.q 0) (hB : 2 * B < C.q 0) (hB0 : 0 ≤ B) (hD0 : 0 ≤ D)
    (hD : digitMax C D)
    (hr : RescaleBy prm.fl C.q prm.scale (prm.fl.rnd (prm.scale * prm.scale)) C.lq 1)
    {M ε δ W : ℝ} (hE : E.Accurate prm.scale (C.N / 2) M ε δ)
    {maxUsers : ℕ} {rnd : String → PartyRand C} {order : List String}
    (ho : order.Perm (userList maxUsers)) (hrnd : ∀ id ∈ order, (rnd id).Ok B) {logSlots : ℕ}
    {t0 : TestRand C} {t : ℕ → TestRand C} (h01 : ∀ k, (t0.d k).Unit)
    (hW0 : ∀ k id, (userList maxUsers)[k]? = some id → ∀ j < C.N / 2,
      ‖islot (noise (fun id => (rnd id).s) (fun id => (rnd id).e) (t0.d k) id) j‖ ≤ W)
    (hW : ∀ n k id, (userList maxUsers)[k]? = some id → ∀ j < C.N / 2,
      ‖islot (noise (fun id => (rnd id).s) (fun id => (rnd id).e) ((t n).d k) id) j‖ ≤ W)
    (hM3 : 3 ≤ M) (hM : 2 + (ε + W / prm.scale) ≤ M)
    (hQ : 2 * (prm.scale * M) < C.qProd C.lq)
    (htol : prm.scale * (ε + δ) + W ≤ 2 ^ (logSlots + 8)) {sc : ℚ}
    (hsc : sc = prodScale prm.fl C.q C.lq prm.scale prm.scale)
    (hQ' : 2 * (sc * M) < C.qProd (C.lq - 1)) {η : ℝ}
    (hη : ∀ k ≤ maxUsers, prodErr 3 3 ((k + 1 : ℕ) * (ε + W / prm.scale))
      ((k + 1 : ℕ) * (ε + W / prm.scale)) (mulEta C order.toFinset.card D 1 B C.lq)
      (C.q C.lq) prm.scale prm.scale sc ≤ η)
    (hM9 : 9 + η ≤ M) (htol' : prm.scale * (η + δ) ≤ 2 ^ (logSlots + 12)) :
    testCKKS E prm logSlots rnd order maxUsers t0 t = .ok true := by
  have h0 : "0" ∉ order := fun h => userList_ne_zero maxUsers (ho.mem_iff.mp h)
  have hsR : (0 : ℝ) < prm.scale := by exact_mod_cast hs
  obtain ⟨kb, e1, hreach, hK, hpk⟩ := genTestParams_keys hC hq hB hcrs hrnd h0
  obtain ⟨a, u, hu, hrk, hrel, hbdd⟩ := genTestParams_relin hcrs hrnd hreach hpk
  have K : MulKit prm kb.rk (fun id => (rnd id).s) order C.lq prm.scale D 1 B :=
    ⟨hF, hD0, by norm_num, hB0, hD, hr, _, _, _, _, _, _, hu, hrel, hbdd⟩
  have hlev : (CDec.new prm).pool.level = C.lq := rfl
  obtain ⟨enc1, dec1, e2, he1, hd1, hl1⟩ := C72_EncAndDec_pass (E := E) (prm := prm) hN hlog hC hK hs hE
    (encOk_new' prm) (dec := CDec.new prm) rfl (users := userList maxUsers)
    (fun id h => ho.mem_iff.mpr h) h01 t0.π hW0 (by linarith) hM (by rw [hlev, min_self]; exact hQ) htol
  rw [hlev, min_self] at hl1
  obtain ⟨st, e3, -, -, -, -, -, hst⟩ := doubling_spec (max := maxUsers)
    (body := fun k (s : (CEnc C × CDec C × Ev C × RlkSet C) × Bool) => do
      let (st, b) ← testMulRun E prm logSlots kb ((userList maxUsers).take k) (t k).d (t k).π (t k).πo
        (t k).π' s.1
      return (st, s.2 && b))
    (P := fun s => EncOk prm s.1.1 ∧ s.1.2.1.pool.isNTT = false ∧ C.lq - 1 ≤ s.1.2.1.pool.level ∧
      s.1.2.2.1.Ok ∧ RlkFor s.1.2.2.2 order.toFinset kb.rk ∧ s.2 = true)
    (fun k st hk hmax hst => by
      obtain ⟨h1, h2, h3⟩ := take_users ho hk hmax
      obtain ⟨⟨enc, dec, ev, rlk⟩, ok⟩ := st
      obtain ⟨p1, p2, p3, p4, p5, p6⟩ := hst
      obtain ⟨enc', dec', ev', rlk', b, g1, g2, g3, g4, g5, g6, -⟩ := testMulRun_ok (E := E) hC hfl hs hK
        hE.len p1 p2 p4 h1 h2 (t k).d K p5 logSlots (t k).π (t k).πo (t k).π'
      have R : Ready E prm { kb with rlkSet := rlk } (fun id => (rnd id).s) (fun id => (rnd id).e) order
          enc dec ev ((userList maxUsers).take k) (t k).d M ε δ W :=
        ⟨hC, ⟨logN, hN, hlog⟩, hfl, hs, ⟨hK.keyed, hK.sk, hK.pk, hK.ne⟩, hE, p1, p2, p4, h1, h2,
          fun i id hi => hW k i id (by
            rw [List.getElem?_take] at hi
            split_ifs at hi
            exact hi)⟩
      have hb : b = true := by
        have hk' := hη k hmax
        have v := C72_Mul_pass R hF hu (rk := kb.rk) p5 hrel hD0 (by norm_num) hB0 hD hbdd hr hsc rfl hM3
          (by rw [h3]; linarith) (lt_of_lt_of_eq hQ' (by rw [min_eq_left p3])) (logSlots := logSlots)
          (by rw [h3]; exact (mul_le_mul_of_nonneg_left (add_le_add_left hk' δ) hsR.le).trans htol')
          (t k).π (t k).πo (t k).π'
        rw [testMulRun_verdict] at v
        have v' : Prod.snd <$> testMulRun E prm logSlots kb ((userList maxUsers).take k) (t k).d (t k).π
          (t k).πo (t k).π' (enc, dec, ev, rlk) = .ok true := v
        rw [g1] at v'
        exact Except.ok.inj v'
      exact ⟨((enc', dec', ev', rlk'), ok && b), by simp only [g1, Go.ok_bind, Go.pure_eq], g2, g3,
        by rw [g4]; exact le_min le_rfl p3, g5, g6, by
          show (ok && b) = true
          rw [show ok = true from p6, hb]; rfl⟩)
    2 ((enc1, dec1, Ev.new, kb.rlkSet), true)
    ⟨he1, hd1, by show C.lq - 1 ≤ dec1.pool.level; omega, Ev.new_ok, hrk, rfl⟩
  unfold testCKKS
  rw [e1, Go.ok_bind]
  simp only [e2, Go.ok_bind]
  rw [e3]
  simp only [Go.ok_bind, Go.pure_eq, hst]

/-- As `doubling_spec`, with an invariant that knows the number of users to come. -/
theorem doubling_spec' {σ : Type _} {body : ℕ → σ → Go σ} {P : ℕ → σ → Prop} {max : ℕ}
    (hb : ∀ k s, 0 < k → k ≤ max → P k s → ∃ s', body k s = .ok s' ∧ P (k * 2) s') (k : ℕ) (hk : 0 < k)
    (s : σ) (h : P k s) : ∃ k' s', doubling body max k s = .ok s' ∧ P k' s' ∧ max < k' := by
  induction hn : max + 1 - k using Nat.strong_induction_on generalizing k s with
  | _ n ih =>
    rw [doubling]
    split_ifs with hk'
    · obtain ⟨s1, e1, h1⟩ := hb k s hk'.1 hk'.2 h
      obtain ⟨k2, s2, e2, h2⟩ := ih (max + 1 - k * 2) (by omega) (k * 2) (by omega) s1 h1 rfl
      exact ⟨k2, s2, by rw [e1, Go.ok_bind, e2], h2⟩
    · exact ⟨k, s, rfl, h, by omega⟩

/-- **C73 (the verdict of `TestCKKS`).** It is positive exactly if `testEncAndDec` passes and, for every
power of two `2^(i+1)` up to the number of users, the decoding of some polynomial at the scale of the
product is within the tolerance of the expected square in all slots: no assertion is skipped. -/
theorem C73_TestCKKS_verdict (hC : C.Good) (hF : C.Fits) (hfl : prm.fl.Ok) (hs : 0 < prm.scale)
    (hcrs : CrsFor prm.crs []) {B D : ℤ} (hq : 2 < C.q 0) (hB : 2 * B < C.q 0) (hB0 : 0 ≤ B) (hD0 : 0 ≤ D)
    (hD : digitMax C D)
    (hr : RescaleBy prm.fl C.q prm.scale (prm.fl.rnd (prm.scale * prm.scale)) C.lq 1)
    (hlen : ∀ m sc, (E.decode m sc).length = C.N / 2)
    {maxUsers : ℕ} {rnd : String → PartyRand C} {order : List String}
    (ho : order.Perm (userList maxUsers)) (hrnd : ∀ id ∈ order, (rnd id).Ok B) (logSlots : ℕ)
    (t0 : TestRand C) (t : ℕ → TestRand C) :
    ∃ kb enc dec ok0 ok, genTestParams prm.crs rnd order = .ok kb ∧
      testEncAndDec E prm logSlots kb (CEnc.new prm) (CDec.new prm) (userList maxUsers) t0.d t0.π =
        .ok (enc, dec, ok0) ∧
      testCKKS E prm logSlots rnd order maxUsers t0 t = .ok ok ∧
      ∃ m : ℕ → Nega C.N ℤ, ok = true ↔ ok0 = true ∧ ∀ i, 2 ^ (i + 1) ≤ maxUsers → ∀ j < C.N / 2,
        near prm (logSlots + 12)
          ((E.decode (m i) (prodScale prm.fl C.q C.lq prm.scale prm.scale)).getD j 0)
          (mulTarget (2 ^ (i + 1))) := by
  have h0 : "0" ∉ order := fun h => userList_ne_zero maxUsers (ho.mem_iff.mp h)
  obtain ⟨kb, e1, hreach, hK, hpk⟩ := genTestParams_keys hC hq hB hcrs hrnd h0
  obtain ⟨a, u, hu, hrk, hrel, hbdd⟩ := genTestParams_relin hcrs hrnd hreach hpk
  have K : MulKit prm kb.rk (fun id => (rnd id).s) order C.lq prm.scale D 1 B :=
    ⟨hF, hD0, by norm_num, hB0, hD, hr, _, _, _, _, _, _, hu, hrel, hbdd⟩
  obtain ⟨enc1, dec1, ok1, e2, he1, hd1, -⟩ := testEncAndDec_ok (E := E) (prm := prm) hC hK hlen
    (encOk_new' prm) (dec := CDec.new prm) rfl (users := userList maxUsers)
    (fun id h => ho.mem_iff.mpr h) t0.d logSlots t0.π
  obtain ⟨k', st, e3, ⟨-, -, -, -, i, hi, hle, m, hm⟩, hmax⟩ := doubling_spec' (max := maxUsers)
    (body := fun k (s : (CEnc C × CDec C × Ev C × RlkSet C) × Bool) => do
      let (st, b) ← testMulRun E prm logSlots kb ((userList maxUsers).take k) (t k).d (t k).π (t k).πo
        (t k).π' s.1
      return (st, s.2 && b))
    (P := fun k s => EncOk prm s.1.1 ∧ s.1.2.1.pool.isNTT = false ∧ s.1.2.2.1.Ok ∧
      RlkFor s.1.2.2.2 order.toFinset kb.rk ∧ ∃ i, k = 2 ^ (i + 1) ∧ (∀ i' < i, 2 ^ (i' + 1) ≤ maxUsers) ∧
        ∃ m : ℕ → Nega C.N ℤ, s.2 = true ↔ ok1 = true ∧ ∀ i' < i, ∀ j < C.N / 2,
          near prm (logSlots + 12)
            ((E.decode (m i') (prodScale prm.fl C.q C.lq prm.scale prm.scale)).getD j 0)
            (mulTarget (2 ^ (i' + 1))))
    (fun k st hk hmax hst => by
      obtain ⟨h1, h2, h3⟩ := take_users ho hk hmax
      obtain ⟨⟨enc, dec, ev, rlk⟩, ok⟩ := st
      obtain ⟨p1, p2, p3, p4, i, rfl, hle, m, hm⟩ := hst
      obtain ⟨enc', dec', ev', rlk', b, g1, g2, g3, -, g4, g5, m', hm'⟩ := testMulRun_ok (E := E) hC hfl
        hs hK hlen p1 p2 p3 h1 h2 (t (2 ^ (i + 1))).d K p4 logSlots (t (2 ^ (i + 1))).π
        (t (2 ^ (i + 1))).πo (t (2 ^ (i + 1))).π'
      rw [h3] at hm'
      refine ⟨((enc', dec', ev', rlk'), ok && b), by simp only [g1, Go.ok_bind, Go.pure_eq], g2, g3, g4,
        g5, i + 1, by ring, fun i' hi' => ?_, Function.update m i m', ?_⟩
      · rcases Nat.lt_succ_iff_lt_or_eq.mp hi' with h | rfl
        exacts [hle i' h, hmax]
      · show (ok && b) = true ↔ _
        rw [Bool.and_eq_true, show ok = true ↔ _ from hm, hm', and_assoc]
        refine and_congr_right fun _ => ⟨fun h i' hi' => ?_, fun h => ⟨fun i' hi' => ?_, ?_⟩⟩
        · rcases Nat.lt_succ_iff_lt_or_eq.mp hi' with h' | rfl
          · rw [Function.update_of_ne (by omega)]; exact h.1 i' h'
          · rw [Function.update_self]; exact h.2
        · have := h i' (by omega)
          rwa [Function.update_of_ne (by omega)] at this
        · have := h i (by omega)
          rwa [Function.update_self] at this)
    2 (by norm_num) ((enc1, dec1, Ev.new, kb.rlkSet), ok1)
    ⟨he1, hd1, Ev.new_ok, hrk, 0, rfl, by simp, fun _ => 0, by simp⟩
  refine ⟨kb, enc1, dec1, ok1, st.2, e1, e2, ?_, m, ?_⟩
  · unfold testCKKS
    rw [e1, Go.ok_bind]
    simp only [e2, Go.ok_bind]
    rw [e3]
    rfl
  · rw [hm]
    refine and_congr_right fun _ => ⟨fun h i' hi' => h i' ?_, fun h i' hi' => h i' (hle i' hi')⟩
    by_contra hge
    have := Nat.pow_le_pow_right (show 0 < 2 by norm_num) (show i + 1 ≤ i' + 1 by omega)
    omega

/-- **C73 (`TestCKKS` notices).** If decryption of the product with some `2^(i+1)` users gives a wrong
number in some slot, whatever is decrypted, `TestCKKS` fails. -/
theorem C73_TestCKKS_sees (hC : C.Good) (hF : C.Fits) (hfl : prm.fl.Ok) (hs : 0 < prm.scale)
    (hcrs : CrsFor prm.crs []) {B D : ℤ} (hq : 2 < C.q 0) (hB : 2 * B < C.q 0) (hB0 : 0 ≤ B) (hD0 : 0 ≤ D)
    (hD : digitMax C D)
    (hr : RescaleBy prm.fl C.q prm.scale (prm.fl.rnd (prm.scale * prm.scale)) C.lq 1)
    (hlen : ∀ m sc, (E.decode m sc).length = C.N / 2)
    {maxUsers : ℕ} {rnd : String → PartyRand C} {order : List String}
    (ho : order.Perm (userList maxUsers)) (hrnd : ∀ id ∈ order, (rnd id).Ok B) {logSlots : ℕ}
    {i j : ℕ} (hi : 2 ^ (i + 1) ≤ maxUsers) (hj : j < C.N / 2)
    (hfar : ∀ m, ¬ near prm (logSlots + 12)
      ((E.decode m (prodScale prm.fl C.q C.lq prm.scale prm.scale)).getD j 0) (mulTarget (2 ^ (i + 1))))
    (t0 : TestRand C) (t : ℕ → TestRand C) :
    testCKKS E prm logSlots rnd order maxUsers t0 t = .ok false := by
  obtain ⟨_, _, _, ok0, ok, -, -, e, m, h⟩ := C73_TestCKKS_verdict (E := E) hC hF hfl hs hcrs hq hB hB0 hD0 hD
    hr hlen ho hrnd logSlots t0 t
  rw [e]
  cases ok with
  | false => rfl
  | true => exact absurd ((h.mp rfl).2 i hi j hj) (hfar _)

end MK.CT
