import Verif.CTest
import Verif.Props.LrSetup
import Verif.Props.LrMain
import Verif.Props.Slots
import Verif.Props.Canon

/-!
# The tests of mkckks (C72)
-/

noncomputable section

namespace MK.CT

open Finset Lr

variable {C : Ctx} {E : Encoder C (List ℂ)} {prm : CPar C}

/-! ## The assertions -/

/-- The assertion in the logarithms says: `|x|` is at most `2^(logSlots + slack) / scale`. -/
theorem within_iff (hs : 0 < prm.scale) (logSlots slack : ℕ) (x : ℝ) :
    within prm logSlots slack x = true ↔ |x| ≤ 2 ^ (logSlots + slack) / prm.scale := by
  have hsc : (0 : ℝ) < prm.scale := by exact_mod_cast hs
  unfold within
  rw [decide_eq_true_iff]
  by_cases hx : x = 0
  · simp only [hx, true_or, abs_zero, true_iff]
    positivity
  · have hx' : 0 < |x| := abs_pos.mpr hx
    simp only [hx, false_or]
    have e : -Real.logb 2 (prm.scale : ℝ) + logSlots + slack =
        Real.logb 2 (2 ^ (logSlots + slack) / (prm.scale : ℝ)) := by
      rw [Real.logb_div (by positivity) hsc.ne', Real.logb_pow, Real.logb_self_eq_one (by norm_num)]
      push_cast
      ring
    rw [e]
    exact Real.logb_le_logb (by norm_num) hx' (by positivity)

theorem checkC_iff (hs : 0 < prm.scale) (logSlots slack n : ℕ) (f : ℕ → ℂ) :
    checkC prm logSlots slack n f = true ↔ ∀ i < n,
      |(f i).re| ≤ 2 ^ (logSlots + slack) / prm.scale ∧
      |(f i).im| ≤ 2 ^ (logSlots + slack) / prm.scale := by
  simp [checkC, List.all_eq_true, within_iff hs]

/-! ## Keys and test vectors -/

/-- What the tests need of the key sets. -/
structure Keys (kb : KeyBag C) (s e : String → Nega C.N ℤ) (S : List String) : Prop where
  keyed : KeyedById kb.skSet
  sk : ∀ id ∈ S, ∃ sk, kb.skSet.value.get? id = some sk ∧ IsSK sk (s id)
  pk : ∀ id ∈ S, ∃ pk, kb.pkSet.value.get? id = some pk ∧ pk.id = id ∧ IsPK pk (s id) (e id)
  ne : "0" ∉ S

/-- `genTestParams` succeeds and gives every party its keys. -/
theorem genTestParams_keys (hC : C.Good) {B : ℤ} (hq : 2 < C.q 0) (hB : 2 * B < C.q 0)
    {crs : CRS C} (hcrs : CrsFor crs []) {rnd : String → PartyRand C} {order : List String}
    (hr : ∀ id ∈ order, (rnd id).Ok B) (h0 : "0" ∉ order) :
    ∃ kb, genTestParams crs rnd order = .ok kb ∧ RlkReach kb.rlkSet ∧
      Keys kb (fun id => (rnd id).s) (fun id => (rnd id).e) order ∧
      ∀ id ∈ order, PartyKeys crs [] kb (rnd id) B id := by
  obtain ⟨kb, e1, h1, h2, h3, -⟩ := genParties_spec hC hq hB hcrs order hr KeyBag.new
    keyedById_new .new
  refine ⟨kb, e1, h3, ⟨h2, fun id hid => ?_, fun id hid => ?_, h0⟩, fun id hid => h1 id (Or.inl hid)⟩
  · obtain ⟨sk, g1, -, g2⟩ := (h1 id (Or.inl hid)).sk
    exact ⟨sk, g1, g2⟩
  · exact (h1 id (Or.inl hid)).pk

/-- The relinearization keys that `genTestParams` makes are those that multiplication needs. -/
theorem genTestParams_relin {B : ℤ} {crs : CRS C} (hcrs : CrsFor crs [])
    {rnd : String → PartyRand C} {order : List String} (hr : ∀ id ∈ order, (rnd id).Ok B)
    {kb : KeyBag C} (h3 : RlkReach kb.rlkSet)
    (hk : ∀ id ∈ order, PartyKeys crs [] kb (rnd id) B id) :
    ∃ a u, crs.get? (-1) = some u ∧ RlkFor kb.rlkSet order.toFinset kb.rk ∧
      RelinFor order.toFinset kb.rk a u (fun id => (rnd id).s) (fun id => (rnd id).r)
        (fun id => (rnd id).eb) (fun id => (rnd id).ed) (fun id => (rnd id).ev) ∧
      RelinBdd C order.toFinset (fun id => (rnd id).s) (fun id => (rnd id).r)
        (fun id => (rnd id).eb) (fun id => (rnd id).ed) (fun id => (rnd id).ev) 1 B := by
  obtain ⟨a, ha, -⟩ := hcrs.zero
  obtain ⟨u, hu⟩ := hcrs.one
  have hrk : ∀ id ∈ order, kb.rlkSet.value.get? id = some (kb.rk id) ∧
      SwEq (kb.rk id).b a (rnd id).s 0 (rnd id).eb ∧ SwEq (kb.rk id).d a (rnd id).r (rnd id).s (rnd id).ed ∧
      SwEq (kb.rk id).v u (rnd id).s (-(rnd id).r) (fun k => -(rnd id).ev k) := by
    intro id hid
    obtain ⟨rlk, a', u', ha', hu', hg, -, g⟩ := (hk id hid).rlk
    obtain rfl : a' = a := by rw [ha] at ha'; exact (Option.some.inj ha').symm
    obtain rfl : u' = u := by rw [hu] at hu'; exact (Option.some.inj hu').symm
    have : kb.rk id = rlk := by simp only [KeyBag.rk, hg]
    rw [this]
    exact ⟨hg, g⟩
  refine ⟨a, u, hu, h3.rlkFor fun id hid => (hrk id (List.mem_toFinset.mp hid)).1,
    ⟨fun id hid => ?_, fun id hid => ?_, fun id hid => ?_⟩,
    ⟨fun id hid => ?_, fun id hid => ?_, fun id hid => ?_, fun id hid => ?_, fun id hid => ?_⟩⟩ <;>
    rw [List.mem_toFinset] at hid
  · exact (hrk id hid).2.1
  · exact (hrk id hid).2.2.1
  · exact (hrk id hid).2.2.2
  · exact (hr id hid).s
  · exact (hr id hid).r
  · exact (hr id hid).eb
  · exact (hr id hid).ed
  · exact (hr id hid).ev

/-- The noise of the encryption with draws `d` under the keys of `id`. -/
def noise (s e : String → Nega C.N ℤ) (d : Draw C) (id : String) : Nega C.N ℤ :=
  d.rnd.u * e id + d.rnd.e0 + d.rnd.e1 * s id

/-- What `newTestVectors` returns. -/
structure IsVec (E : Encoder C (List ℂ)) (prm : CPar C) (s e : String → Nega C.N ℤ) (d : Draw C)
    (id : String) (a b : ℂ) (m : List ℂ) (ct : CCt C) : Prop where
  msg : m = testMsg C d a b
  wf : ct.ct.Wf C.lq false
  parties : ct.ct.parties = {id}
  scale : ct.scale = prm.scale
  carries : ct.ct.Carries s C.lq (E.encode m prm.scale + noise s e d id)

variable {kb : KeyBag C} {s e : String → Nega C.N ℤ} {S : List String}

theorem newTestVectors_spec (hC : C.Good) (K : Keys kb s e S) {enc : CEnc C} (he : EncOk prm enc)
    (d : Draw C) {id : String} (hid : id ∈ S) (a b : ℂ) :
    ∃ enc' m ct, newTestVectors E prm kb.pkSet enc d id a b = .ok (enc', m, ct) ∧ EncOk prm enc' ∧
      IsVec E prm s e d id a b m ct := by
  obtain ⟨pk, g1, rfl, g3⟩ := K.pk id hid
  have hne : pk.id ≠ "0" := fun h => K.ne (h ▸ hid)
  obtain ⟨enc', ct, h1, h2, h3, h4, h5, h6, h7⟩ := CEnc.expand_phase hC E prm he.len he.scale
    (o := [pk.id]) (by simp) (by simpa using fun h => hne h.symm) g3 d.rnd (testMsg C d a b)
  refine ⟨enc', _, ct, ?_, ⟨h2, h3⟩, rfl, h4, by simpa using h5, h6, h7 s rfl⟩
  unfold newTestVectors
  have : kb.pkSet.get pk.id = .ok pk := by simp [KeySet.get, g1]
  simp only [this, Go.ok_bind, (C49_EncryptMsgNew E prm enc pk d.rnd _).2 hne, h1, Go.pure_eq]

theorem vectors_spec (hC : C.Good) (K : Keys kb s e S) (a b : ℂ) (d : ℕ → Draw C)
    (users : List String) (hu : ∀ id ∈ users, id ∈ S) : ∀ (i : ℕ) (enc : CEnc C), EncOk prm enc →
    ∃ enc' ms cts, vectors E prm kb.pkSet a b d i users enc = .ok (enc', ms, cts) ∧
      EncOk prm enc' ∧ ms.length = users.length ∧ cts.length = users.length ∧
      ∀ k id, users[k]? = some id → ∃ m ct, ms[k]? = some m ∧ cts[k]? = some ct ∧
        IsVec E prm s e (d (i + k)) id a b m ct := by
  induction users with
  | nil => exact fun i enc he => ⟨enc, [], [], rfl, he, rfl, rfl, by simp⟩
  | cons id l ih =>
    intro i enc he
    obtain ⟨enc1, m, ct, e1, he1, hv⟩ := newTestVectors_spec hC K he (d i) (hu id (by simp)) a b
    obtain ⟨enc2, ms, cts, e2, he2, l1, l2, h⟩ := ih (fun j hj => hu j (by simp [hj])) (i + 1) enc1 he1
    refine ⟨enc2, m :: ms, ct :: cts, ?_, he2, by simp [l1], by simp [l2], fun k id' hk => ?_⟩
    · rw [vectors, e1, Go.ok_bind]
      dsimp only
      rw [e2]
      rfl
    · cases k with
      | zero =>
        obtain rfl : id = id' := by simpa using hk
        exact ⟨m, ct, rfl, rfl, hv⟩
      | succ k =>
        obtain ⟨m', ct', g1, g2, g3⟩ := h k id' (by simpa using hk)
        refine ⟨m', ct', by simpa using g1, by simpa using g2, ?_⟩
        rwa [show i + (k + 1) = i + 1 + k by omega]

theorem testMsg_length (d : Draw C) (a b : ℂ) : (testMsg C d a b).length = C.N / 2 := by
  simp [testMsg]

/-! ## Encryption and decryption -/

theorem ok_of_decrypt (hC : C.Good) (K : Keys kb s e S) {dec : CDec C}
    (hd : dec.pool.isNTT = false) {ct : CCt C} {L : ℕ} (hw : ct.ct.Wf L false) (hL : L < C.nQ)
    (hp : ∀ id ∈ ct.ct.parties, id ∈ S) {m : Nega C.N ℤ} (hm : ct.ct.Carries s L m)
    (hfit : ∀ j, 2 * |m.coeff j| < C.qProd (min L dec.pool.level)) (π : Sched) :
    ∃ dec', dec.Decrypt E ct kb.skSet π = .ok (dec', E.decode m ct.scale) ∧
      dec'.pool.isNTT = false ∧ dec'.pool.level = min L dec.pool.level := by
  obtain ⟨dec', g1, g2, g3⟩ := C43_Decrypt hC E hd hw.ragged hL K.keyed
    (fun id hid => K.sk id (hp id hid)) hm π
  rw [centre_eq_self hfit] at g1
  exact ⟨dec', g1, g2, g3⟩

theorem decLoop_spec (hC : C.Good) (K : Keys kb s e S) (hs : 0 < prm.scale) {logSlots n : ℕ}
    (hlen : ∀ m sc, (E.decode m sc).length = n) (hn : C.N / 2 = n) {a b : ℂ} {d : ℕ → Draw C}
    (π : ℕ → Sched) {lvl : ℕ} (users : List String) (hu : ∀ id ∈ users, id ∈ S) :
    ∀ (i : ℕ) (ms : List (List ℂ)) (cts : List (CCt C)) (dec : CDec C),
    ms.length = users.length → cts.length = users.length →
    (∀ k id, users[k]? = some id → ∃ m ct, ms[k]? = some m ∧ cts[k]? = some ct ∧
        IsVec E prm s e (d (i + k)) id a b m ct) →
    (∀ k id, users[k]? = some id → ∀ t,
      2 * |(E.encode (testMsg C (d (i + k)) a b) prm.scale + noise s e (d (i + k)) id).coeff t| <
        C.qProd (min C.lq lvl)) →
    dec.pool.isNTT = false → min C.lq dec.pool.level = min C.lq lvl →
    ∃ dec' ok, decLoop E prm logSlots kb.skSet π i ms cts dec = .ok (dec', ok) ∧
      (dec'.pool.isNTT = false ∧ min C.lq dec'.pool.level = min C.lq lvl) ∧
      (ok = true ↔ ∀ k id, users[k]? = some id → ∀ j < n,
        |((testMsg C (d (i + k)) a b).getD j 0 -
          (E.decode (E.encode (testMsg C (d (i + k)) a b) prm.scale + noise s e (d (i + k)) id)
            prm.scale).getD j 0).re| ≤ 2 ^ (logSlots + 8) / prm.scale) := by
  induction users with
  | nil =>
    intro i ms cts dec h1 h2 _ _ hd hlev
    obtain rfl := List.length_eq_zero_iff.mp h1
    obtain rfl := List.length_eq_zero_iff.mp h2
    exact ⟨dec, true, rfl, ⟨hd, hlev⟩, by simp⟩
  | cons id l ih =>
    intro i ms cts dec h1 h2 hv hfit hd hlev
    obtain ⟨m, ct, g1, g2, v⟩ := hv 0 id rfl
    obtain ⟨ms, rfl⟩ : ∃ ms', ms = m :: ms' := by
      cases ms with
      | nil => simp at g1
      | cons x y => exact ⟨y, by simpa using g1⟩
    obtain ⟨cts, rfl⟩ : ∃ cts', cts = ct :: cts' := by
      cases cts with
      | nil => simp at g2
      | cons x y => exact ⟨y, by simpa using g2⟩
    have hm := v.msg
    subst hm
    have hL : C.lq < C.nQ := by have := hC.nQ_pos; unfold Ctx.lq; omega
    obtain ⟨dec1, e1, d1, l1⟩ := ok_of_decrypt (E := E) hC K hd v.wf hL
      (by rw [v.parties]; simpa using hu id (by simp)) v.carries
      (by rw [hlev]; exact hfit 0 id rfl) (π i)
    rw [v.scale] at e1
    have hck : checkRe prm logSlots (testMsg C (d (i + 0)) a b)
        (E.decode (E.encode (testMsg C (d (i + 0)) a b) prm.scale + noise s e (d (i + 0)) id) prm.scale) =
        .ok ((List.range (C.N / 2)).all fun j => within prm logSlots 8
          ((testMsg C (d (i + 0)) a b).getD j 0 - (E.decode (E.encode (testMsg C (d (i + 0)) a b)
            prm.scale + noise s e (d (i + 0)) id) prm.scale).getD j 0).re) := by
      unfold checkRe
      rw [testMsg_length, hlen, hn, if_neg (lt_irrefl _)]
    have hstep : (List.range (C.N / 2)).all (fun j => within prm logSlots 8
          ((testMsg C (d (i + 0)) a b).getD j 0 - (E.decode (E.encode (testMsg C (d (i + 0)) a b)
            prm.scale + noise s e (d (i + 0)) id) prm.scale).getD j 0).re) = true ↔ ∀ j < n,
        |((testMsg C (d (i + 0)) a b).getD j 0 -
          (E.decode (E.encode (testMsg C (d (i + 0)) a b) prm.scale + noise s e (d (i + 0)) id)
            prm.scale).getD j 0).re| ≤ 2 ^ (logSlots + 8) / prm.scale := by
      simp only [List.all_eq_true, List.mem_range, within_iff hs, hn]
    by_cases hok : (List.range (C.N / 2)).all (fun j => within prm logSlots 8
          ((testMsg C (d (i + 0)) a b).getD j 0 - (E.decode (E.encode (testMsg C (d (i + 0)) a b)
            prm.scale + noise s e (d (i + 0)) id) prm.scale).getD j 0).re) = true
    · obtain ⟨dec2, ok, e2, hd2, h⟩ := ih (fun j hj => hu j (by simp [hj])) (i + 1) ms cts dec1
        (by simpa using h1) (by simpa using h2)
        (fun k id' hk => by
          obtain ⟨m', ct', q1, q2, q3⟩ := hv (k + 1) id' (by simpa using hk)
          rw [show i + (k + 1) = i + 1 + k by omega] at q3
          exact ⟨m', ct', by simpa using q1, by simpa using q2, q3⟩)
        (fun k id' hk => by
          have := hfit (k + 1) id' (by simpa using hk)
          rwa [show i + (k + 1) = i + 1 + k by omega] at this)
        d1 (by rw [l1, hlev]; omega)
      refine ⟨dec2, ok, ?_, hd2, h.trans ⟨fun H k id' hk => ?_, fun H k id' hk => ?_⟩⟩
      · simp only [decLoop, e1, Go.ok_bind, hck, hok, if_true, e2]
      · cases k with
        | zero =>
          obtain rfl : id = id' := by simpa using hk
          exact hstep.mp hok
        | succ k =>
          have := H k id' (by simpa using hk)
          rwa [show i + (k + 1) = i + 1 + k by omega]
      · have := H (k + 1) id' (by simpa using hk)
        rwa [show i + (k + 1) = i + 1 + k by omega] at this
    · refine ⟨dec1, false, ?_, ⟨d1, by rw [l1, hlev]; omega⟩, ⟨fun h => absurd h (by simp), fun H => ?_⟩⟩
      · simp only [decLoop, e1, Go.ok_bind, hck, Bool.eq_false_iff.mpr hok, if_false, Go.pure_eq,
          Bool.false_eq_true]
      · exact absurd (hstep.mpr (H 0 id rfl)) hok

/-- **C72**, `testEncAndDec`: for every key, draw, order and state of the encryptor and the
decryptor it does not panic, and it passes exactly if for every user and slot the real parts of the
message and of the decoding of "encoded message plus noise" differ by at most
`2^(logSlots+8)/scale`. -/
theorem C72_EncAndDec_verdict (hC : C.Good) (K : Keys kb s e S) (hs : 0 < prm.scale)
    {logSlots n : ℕ} (hlen : ∀ m sc, (E.decode m sc).length = n) (hn : C.N / 2 = n)
    {enc : CEnc C} (he : EncOk prm enc) {dec : CDec C} (hd : dec.pool.isNTT = false)
    {users : List String} (hu : ∀ id ∈ users, id ∈ S) (d : ℕ → Draw C) (π : ℕ → Sched)
    (hfit : ∀ k id, users[k]? = some id → ∀ t,
      2 * |(E.encode (testMsg C (d k) ⟨-1, -1⟩ ⟨1, 1⟩) prm.scale + noise s e (d k) id).coeff t| <
        C.qProd (min C.lq dec.pool.level)) :
    ∃ enc' dec' ok, testEncAndDec E prm logSlots kb enc dec users d π = .ok (enc', dec', ok) ∧
      EncOk prm enc' ∧
      (dec'.pool.isNTT = false ∧ min C.lq dec'.pool.level = min C.lq dec.pool.level) ∧
      (ok = true ↔ ∀ k id, users[k]? = some id → ∀ j < n,
        |((testMsg C (d k) ⟨-1, -1⟩ ⟨1, 1⟩).getD j 0 -
          (E.decode (E.encode (testMsg C (d k) ⟨-1, -1⟩ ⟨1, 1⟩) prm.scale + noise s e (d k) id)
            prm.scale).getD j 0).re| ≤ 2 ^ (logSlots + 8) / prm.scale) := by
  obtain ⟨enc', ms, cts, e1, he', l1, l2, hv⟩ := vectors_spec (E := E) (prm := prm) hC K ⟨-1, -1⟩
    ⟨1, 1⟩ d users hu 0 enc he
  simp only [Nat.zero_add] at hv
  obtain ⟨dec', ok, e2, hd', h⟩ := decLoop_spec (E := E) (prm := prm) (logSlots := logSlots) (d := d)
    (a := ⟨-1, -1⟩) (b := ⟨1, 1⟩) (lvl := dec.pool.level) hC K hs hlen hn π users hu 0 ms cts dec l1 l2
    (by simpa using hv) (by simpa using hfit) hd rfl
  simp only [Nat.zero_add] at h
  refine ⟨enc', dec', ok, ?_, he', hd', h⟩
  unfold testEncAndDec
  simp only [e1, e2, Go.ok_bind, Go.pure_eq]

/-! ### Sizes -/

theorem randFloat_self (f x : ℝ) : randFloat f x x = x := by simp [randFloat]

/-- With equal corners the message is constant, whatever is drawn. -/
theorem testMsg_const (d : Draw C) (z : ℂ) : testMsg C d z z = List.replicate (C.N / 2) z := by
  refine List.ext_getElem (by simp [testMsg]) fun i h1 h2 => ?_
  simp [testMsg, randFloat_self]

theorem norm_scale {q : ℚ} (h : 0 < q) : ‖(q : ℂ)‖ = (q : ℝ) := by
  have : (q : ℂ) = ((q : ℝ) : ℂ) := by push_cast; rfl
  rw [this, Complex.norm_real, Real.norm_eq_abs, abs_of_pos (by exact_mod_cast h)]

/-- The draws are numbers of `[0, 1]`. -/
def Draw.Unit (d : Draw C) : Prop := ∀ i, (0 ≤ d.re i ∧ d.re i ≤ 1) ∧ 0 ≤ d.im i ∧ d.im i ≤ 1

theorem testMsg_norm {d : Draw C} (h : d.Unit) : ∀ x ∈ testMsg C d ⟨-1, -1⟩ ⟨1, 1⟩, ‖x‖ ≤ 2 := by
  intro x hx
  simp only [testMsg, List.mem_map, List.mem_range] at hx
  obtain ⟨i, -, rfl⟩ := hx
  obtain ⟨⟨h1, h2⟩, h3, h4⟩ := h i
  refine (Complex.norm_le_abs_re_add_abs_im _).trans ?_
  have a : |randFloat (d.re i) (-1) 1| ≤ 1 := by rw [abs_le]; unfold randFloat; constructor <;> linarith
  have b : |randFloat (d.im i) (-1) 1| ≤ 1 := by rw [abs_le]; unfold randFloat; constructor <;> linarith
  show |randFloat (d.re i) (-1) 1| + |randFloat (d.im i) (-1) 1| ≤ 2
  linarith

/-- A polynomial whose slots are at most `scale * M` fits the moduli if `scale * M` does. -/
theorem fits_of_slots {logN : ℕ} (hN : C.N = 2 ^ logN) (hlog : 1 ≤ logN) {sc : ℚ} (hs : 0 < sc)
    {M : ℝ} {m : Nega C.N ℤ} (h : ∀ j < C.N / 2, ‖islot m j / sc‖ ≤ M) {Q : ℕ}
    (hQ : 2 * (sc * M) < Q) (t : Fin C.N) : 2 * |m.coeff t| < Q := by
  have hsc : (0 : ℝ) < sc := by exact_mod_cast hs
  have h1 : |(Nega.map (Int.castRingHom ℝ) m).coeff t| ≤ sc * M := by
    refine coeff_le_slots hN hlog _ (fun j hj => ?_) t
    rw [← islot_eq]
    have h2 := h j (by omega)
    rw [norm_div, norm_scale hs, div_le_iff₀ hsc] at h2
    linarith
  have h3 : |(m.coeff t : ℝ)| ≤ sc * M := h1
  have : (2 * |(m.coeff t : ℝ)| : ℝ) < Q := by linarith
  exact_mod_cast this

/-- The slots of an encoded message plus noise, when the noise is at most `W` in every slot. -/
theorem enc_slots {n : ℕ} {M ε δ W : ℝ} (hE : E.Accurate prm.scale n M ε δ) (hs : 0 < prm.scale)
    {l : List ℂ} (hl : l.length = n) (hM : ∀ x ∈ l, ‖x‖ ≤ M) {w : Nega C.N ℤ}
    (hw : ∀ j < n, ‖islot w j‖ ≤ W) {j : ℕ} (hj : j < n) :
    ‖islot (E.encode l prm.scale + w) j / prm.scale - l.getD j 0‖ ≤ ε + W / prm.scale := by
  have hsc : (0 : ℝ) < prm.scale := by exact_mod_cast hs
  have h1 := hE.enc l hl hM j hj
  rw [islot, slot_add, add_div, add_sub_right_comm]
  refine (norm_add_le _ _).trans (add_le_add h1 ?_)
  rw [norm_div, norm_scale hs]
  exact div_le_div_of_nonneg_right (hw j hj) hsc.le

theorem getD_norm_le {l : List ℂ} {X : ℝ} (hX : ∀ x ∈ l, ‖x‖ ≤ X) {j : ℕ} (hj : j < l.length) :
    ‖l.getD j 0‖ ≤ X := by
  rw [List.getD_eq_getElem _ _ hj]
  exact hX _ (List.getElem_mem hj)

/-- **C72**, `testEncAndDec`, sufficient condition: it passes whenever the noise of every encryption
is at most `W` in every slot and `W` plus the errors of the encoder is at most `2^(logSlots+8)`
(all in units of `1/scale`). -/
theorem C72_EncAndDec_pass {logN : ℕ} (hN : C.N = 2 ^ logN) (hlog : 1 ≤ logN) (hC : C.Good)
    (K : Keys kb s e S) (hs : 0 < prm.scale) {logSlots : ℕ} {M ε δ W : ℝ}
    (hE : E.Accurate prm.scale (C.N / 2) M ε δ) {enc : CEnc C} (he : EncOk prm enc) {dec : CDec C}
    (hd : dec.pool.isNTT = false) {users : List String} (hu : ∀ id ∈ users, id ∈ S)
    {d : ℕ → Draw C} (hd01 : ∀ k, (d k).Unit) (π : ℕ → Sched)
    (hW : ∀ k id, users[k]? = some id → ∀ j < C.N / 2, ‖islot (noise s e (d k) id) j‖ ≤ W)
    (hM2 : 2 ≤ M) (hM : 2 + (ε + W / prm.scale) ≤ M)
    (hQ : 2 * (prm.scale * M) < C.qProd (min C.lq dec.pool.level))
    (htol : prm.scale * (ε + δ) + W ≤ 2 ^ (logSlots + 8)) :
    ∃ enc' dec', testEncAndDec E prm logSlots kb enc dec users d π = .ok (enc', dec', true) ∧
      EncOk prm enc' ∧ dec'.pool.isNTT = false ∧
      min C.lq dec'.pool.level = min C.lq dec.pool.level := by
  have hsc : (0 : ℝ) < prm.scale := by exact_mod_cast hs
  have hmsg := fun k => testMsg_norm (hd01 k)
  have hslot : ∀ k id, users[k]? = some id → ∀ j < C.N / 2,
      ‖islot (E.encode (testMsg C (d k) ⟨-1, -1⟩ ⟨1, 1⟩) prm.scale + noise s e (d k) id) j / prm.scale -
        (testMsg C (d k) ⟨-1, -1⟩ ⟨1, 1⟩).getD j 0‖ ≤ ε + W / prm.scale := fun k id hk j hj =>
    enc_slots hE hs (testMsg_length _ _ _) (fun x hx => (hmsg k x hx).trans hM2) (hW k id hk) hj
  have hsize : ∀ k id, users[k]? = some id → ∀ j < C.N / 2,
      ‖islot (E.encode (testMsg C (d k) ⟨-1, -1⟩ ⟨1, 1⟩) prm.scale + noise s e (d k) id) j / prm.scale‖ ≤
        M := by
    intro k id hk j hj
    have h1 := hslot k id hk j hj
    have h2 := getD_norm_le (hmsg k) (j := j) (by rw [testMsg_length]; exact hj)
    have h3 := norm_add_le (islot (E.encode (testMsg C (d k) ⟨-1, -1⟩ ⟨1, 1⟩) prm.scale +
      noise s e (d k) id) j / prm.scale - (testMsg C (d k) ⟨-1, -1⟩ ⟨1, 1⟩).getD j 0)
      ((testMsg C (d k) ⟨-1, -1⟩ ⟨1, 1⟩).getD j 0)
    rw [sub_add_cancel] at h3
    linarith
  obtain ⟨enc', dec', ok, e1, h1, hd', h2⟩ := C72_EncAndDec_verdict (logSlots := logSlots) hC K hs
    hE.len rfl he hd hu d π fun k id hk => fits_of_slots hN hlog hs (hsize k id hk) hQ
  refine ⟨enc', dec', ?_, h1, hd'⟩
  rw [e1]
  have : ok = true := by
    rw [h2]
    intro k id hk j hj
    have g1 := hslot k id hk j hj
    have g2 := hE.dec _ prm.scale hs (hsize k id hk) j hj
    refine (Complex.abs_re_le_norm _).trans ?_
    rw [norm_sub_rev]
    have g3 := norm_add_le ((E.decode (E.encode (testMsg C (d k) ⟨-1, -1⟩ ⟨1, 1⟩) prm.scale +
        noise s e (d k) id) prm.scale).getD j 0 -
      islot (E.encode (testMsg C (d k) ⟨-1, -1⟩ ⟨1, 1⟩) prm.scale + noise s e (d k) id) j / prm.scale)
      (islot (E.encode (testMsg C (d k) ⟨-1, -1⟩ ⟨1, 1⟩) prm.scale + noise s e (d k) id) j / prm.scale -
      (testMsg C (d k) ⟨-1, -1⟩ ⟨1, 1⟩).getD j 0)
    rw [sub_add_sub_cancel] at g3
    refine (g3.trans (add_le_add g2 g1)).trans ?_
    rw [le_div_iff₀ hsc]
    have : (W / prm.scale : ℝ) * prm.scale = W := by field_simp
    linarith
  rw [this]

/-! ### The assertion can fail -/

/-- The polynomial with the first `m` coefficients equal to `c`. -/
def block (N m : ℕ) (c : ℤ) : Nega N ℤ := ⟨fun i => if i.val < m then c else 0⟩

theorem block_bdd (N m : ℕ) (c : ℤ) : (block N m c).Bdd |c| := by
  intro i
  show |if i.val < m then c else 0| ≤ |c|
  split_ifs
  · exact le_rfl
  · simp

theorem slot_block {m : ℕ} (hm : m ≤ C.N) (c : ℤ) (j : ℕ) :
    islot (block C.N m c) j = c * ∑ a ∈ range m, slotPt C.N j ^ a := by
  have h1 : ∀ i : Fin C.N, (Int.castRingHom ℂ) ((block C.N m c).coeff i) * slotPt C.N j ^ i.val =
      (fun i : ℕ => if i < m then (c : ℂ) * slotPt C.N j ^ i else 0) i.val := by
    intro i
    show ((if i.val < m then c else 0 : ℤ) : ℂ) * _ = _
    dsimp only
    split_ifs <;> simp
  unfold islot slot
  rw [Finset.sum_congr rfl fun i _ => h1 i,
    Fin.sum_univ_eq_sum_range (fun i : ℕ => if i < m then (c : ℂ) * slotPt C.N j ^ i else 0) C.N,
    mul_sum, ← Finset.sum_subset (Finset.range_subset_range.mpr hm)]
  · exact Finset.sum_congr rfl fun i hi => by rw [if_pos (mem_range.mp hi)]
  · intro i _ hi
    rw [if_neg (by simpa using hi)]

/-- Powers below `N/3` of the first slot point have a real part of at least one half. -/
theorem slotPt_re {N a : ℕ} (hN : 0 < N) (ha : 3 * a ≤ N) : 1 / 2 ≤ (slotPt N 0 ^ a).re := by
  have hN' : (0 : ℝ) < N := by exact_mod_cast hN
  have e : slotPt N 0 ^ a = Complex.exp ((((a : ℝ) * (Real.pi / N) : ℝ) : ℂ) * Complex.I) := by
    unfold slotPt
    rw [pow_zero, pow_one, ← Complex.exp_nat_mul]
    congr 1
    push_cast
    ring
  rw [e, Complex.exp_ofReal_mul_I_re, ← Real.cos_pi_div_three]
  have h3 : (3 : ℝ) * a ≤ N := by exact_mod_cast ha
  refine Real.cos_le_cos_of_nonneg_of_le_pi (by positivity) (by linarith [Real.pi_pos]) ?_
  rw [← mul_div_assoc, div_le_iff₀ hN']
  nlinarith [Real.pi_pos]

theorem block_slot_re {m : ℕ} (hN : 0 < C.N) (hm : 6 * m ≤ C.N) :
    19 / 2 * (m : ℝ) ^ 2 ≤ (islot (block C.N m 1 * block C.N m 19) 0).re := by
  have : NeZero C.N := ⟨hN.ne'⟩
  rw [islot, slot_mul]
  change _ ≤ (islot (block C.N m 1) 0 * islot (block C.N m 19) 0).re
  rw [slot_block (by omega), slot_block (by omega)]
  have e : ((1 : ℤ) : ℂ) * (∑ a ∈ range m, slotPt C.N 0 ^ a) *
      (((19 : ℤ) : ℂ) * ∑ a ∈ range m, slotPt C.N 0 ^ a) =
      ((19 : ℝ) : ℂ) * ∑ a ∈ range m, ∑ b ∈ range m, slotPt C.N 0 ^ (a + b) := by
    have : ∑ a ∈ range m, ∑ b ∈ range m, slotPt C.N 0 ^ (a + b) =
        (∑ a ∈ range m, slotPt C.N 0 ^ a) * ∑ b ∈ range m, slotPt C.N 0 ^ b := by
      rw [sum_mul_sum]
      exact sum_congr rfl fun a _ => sum_congr rfl fun b _ => pow_add _ _ _
    rw [this]
    push_cast
    ring
  rw [e, Complex.re_ofReal_mul, Complex.re_sum]
  have : ∑ _a ∈ range m, ∑ _b ∈ range m, (1 / 2 : ℝ) ≤
      ∑ a ∈ range m, (∑ b ∈ range m, slotPt C.N 0 ^ (a + b)).re := by
    refine sum_le_sum fun a ha => ?_
    rw [Complex.re_sum]
    refine sum_le_sum fun b hb => slotPt_re hN ?_
    have := mem_range.mp ha
    have := mem_range.mp hb
    omega
  simp only [sum_const, card_range, nsmul_eq_mul] at this
  nlinarith

/-- **C72**, `testEncAndDec`, negative part: from ring degree 512 on, whatever the messages and the
other users' draws are, some error of the public key and some samples of the encryption within the
bounds of the samplers make it fail. -/
theorem C72_EncAndDec_can_fail {logN : ℕ} (hN : C.N = 2 ^ logN) (h9 : 9 ≤ logN) (hC : C.Good)
    (K : Keys kb s e S) (hs : 0 < prm.scale) {M ε δ : ℝ}
    (hE : E.Accurate prm.scale (C.N / 2) M ε δ) {enc : CEnc C} (he : EncOk prm enc) {dec : CDec C}
    (hd : dec.pool.isNTT = false) {users : List String} (hu : ∀ id ∈ users, id ∈ S)
    {d : ℕ → Draw C} (hd01 : ∀ k, (d k).Unit) (π : ℕ → Sched)
    (hb : ∀ k id, users[k]? = some id → (noise s e (d k) id).Bdd (19 * (2 * C.N + 1)))
    {k : ℕ} {id : String} (hk : users[k]? = some id)
    (hu1 : (d k).rnd.u = block C.N (C.N / 6) 1) (he1 : e id = block C.N (C.N / 6) 19)
    (h0 : (d k).rnd.e0 = 0) (h1 : (d k).rnd.e1 = 0)
    (hM2 : 2 ≤ M) (hM : 2 + (ε + C.N * (19 * (2 * C.N + 1)) / prm.scale) ≤ M)
    (hQ : 2 * (prm.scale * M) < C.qProd (min C.lq dec.pool.level))
    (htol : prm.scale * (ε + δ) ≤ C.N) :
    ∃ enc' dec', testEncAndDec E prm (logN - 1) kb enc dec users d π = .ok (enc', dec', false) := by
  have hsc : (0 : ℝ) < prm.scale := by exact_mod_cast hs
  have hN512 : 512 ≤ C.N := by rw [hN]; exact (Nat.pow_le_pow_right (by norm_num) h9 : 2 ^ 9 ≤ 2 ^ logN)
  have hmsg := fun k => testMsg_norm (hd01 k)
  have hW : ∀ k id, users[k]? = some id → ∀ j < C.N / 2,
      ‖islot (noise s e (d k) id) j‖ ≤ C.N * (19 * (2 * C.N + 1)) := fun k id hk j _ =>
    slot_le (fun i => by exact_mod_cast hb k id hk i) j
  have hslot : ∀ k id, users[k]? = some id → ∀ j < C.N / 2,
      ‖islot (E.encode (testMsg C (d k) ⟨-1, -1⟩ ⟨1, 1⟩) prm.scale + noise s e (d k) id) j / prm.scale -
        (testMsg C (d k) ⟨-1, -1⟩ ⟨1, 1⟩).getD j 0‖ ≤ ε + C.N * (19 * (2 * C.N + 1)) / prm.scale :=
    fun k id hk j hj => enc_slots hE hs (testMsg_length _ _ _)
      (fun x hx => (hmsg k x hx).trans hM2) (hW k id hk) hj
  have hsize : ∀ k id, users[k]? = some id → ∀ j < C.N / 2,
      ‖islot (E.encode (testMsg C (d k) ⟨-1, -1⟩ ⟨1, 1⟩) prm.scale + noise s e (d k) id) j / prm.scale‖ ≤
        M := by
    intro k id hk j hj
    have h1 := hslot k id hk j hj
    have h2 := getD_norm_le (hmsg k) (j := j) (by rw [testMsg_length]; exact hj)
    have h3 := norm_add_le (islot (E.encode (testMsg C (d k) ⟨-1, -1⟩ ⟨1, 1⟩) prm.scale +
      noise s e (d k) id) j / prm.scale - (testMsg C (d k) ⟨-1, -1⟩ ⟨1, 1⟩).getD j 0)
      ((testMsg C (d k) ⟨-1, -1⟩ ⟨1, 1⟩).getD j 0)
    rw [sub_add_cancel] at h3
    linarith
  obtain ⟨enc', dec', ok, e1, -, -, h2⟩ := C72_EncAndDec_verdict (logSlots := logN - 1) hC K hs hE.len
    rfl he hd hu d π fun k id hk => fits_of_slots hN (by omega) hs (hsize k id hk) hQ
  refine ⟨enc', dec', ?_⟩
  rw [e1]
  have : ok = false := by
    rw [Bool.eq_false_iff]
    intro hok
    have hj : 0 < C.N / 2 := by omega
    have h3 := h2.mp hok k id hk 0 hj
    have hn : noise s e (d k) id = block C.N (C.N / 6) 1 * block C.N (C.N / 6) 19 := by
      unfold noise
      rw [hu1, he1, h0, h1]
      simp
    have g1 := hE.enc (testMsg C (d k) ⟨-1, -1⟩ ⟨1, 1⟩) (testMsg_length _ _ _)
      (fun x hx => (hmsg k x hx).trans hM2) 0 hj
    have g2 := hE.dec _ prm.scale hs (hsize k id hk) 0 hj
    have g3 := block_slot_re (C := C) (m := C.N / 6) (by omega) (by omega)
    rw [← hn] at g3
    generalize (testMsg C (d k) ⟨-1, -1⟩ ⟨1, 1⟩).getD 0 0 = x at *
    generalize (E.decode (E.encode (testMsg C (d k) ⟨-1, -1⟩ ⟨1, 1⟩) prm.scale + noise s e (d k) id)
      prm.scale).getD 0 0 = y at *
    rw [islot, slot_add, add_div] at g2
    change ‖y - (islot (E.encode (testMsg C (d k) ⟨-1, -1⟩ ⟨1, 1⟩) prm.scale) 0 / prm.scale +
      islot (noise s e (d k) id) 0 / prm.scale)‖ ≤ δ at g2
    generalize islot (E.encode (testMsg C (d k) ⟨-1, -1⟩ ⟨1, 1⟩) prm.scale) 0 / (prm.scale : ℂ) = a at *
    have r1 := (Complex.abs_re_le_norm _).trans g1
    have r2 := (Complex.abs_re_le_norm _).trans g2
    have r3 : (islot (noise s e (d k) id) 0 / (prm.scale : ℂ)).re =
        (islot (noise s e (d k) id) 0).re / prm.scale := by
      have : (prm.scale : ℂ) = ((prm.scale : ℝ) : ℂ) := by push_cast; rfl
      rw [this, Complex.div_ofReal_re]
    simp only [Complex.sub_re, Complex.add_re, r3] at r1 r2 h3
    generalize (islot (noise s e (d k) id) 0).re = w at *
    rw [abs_le] at r1 r2 h3
    have htotal : w / prm.scale ≤ 2 ^ (logN - 1 + 8) / prm.scale + ε + δ := by linarith
    have h5 : w ≤ 2 ^ (logN - 1 + 8) + prm.scale * (ε + δ) := by
      have h6 := mul_le_mul_of_nonneg_right htotal hsc.le
      rw [div_mul_cancel₀ _ hsc.ne', add_assoc, add_mul, div_mul_cancel₀ _ hsc.ne'] at h6
      linarith
    have h7 : (2 : ℝ) ^ (logN - 1 + 8) = 128 * C.N := by
      rw [hN]
      push_cast
      rw [show logN - 1 + 8 = logN + 7 by omega, pow_add]
      ring
    rw [h7] at h5
    have hq6 : C.N ≤ 6 * (C.N / 6) + 4 := by
      have h8 : C.N % 6 ≠ 5 := by
        have : C.N % 2 = 0 := by
          rw [hN]
          obtain ⟨t, rfl⟩ : ∃ t, logN = t + 1 := ⟨logN - 1, by omega⟩
          rw [pow_succ]; omega
        omega
      omega
    have hq' : (C.N : ℝ) ≤ 6 * ((C.N / 6 : ℕ) : ℝ) + 4 := by exact_mod_cast hq6
    have hN' : (512 : ℝ) ≤ C.N := by exact_mod_cast hN512
    generalize ((C.N / 6 : ℕ) : ℝ) = m at *
    generalize (C.N : ℝ) = X at *
    nlinarith
  rw [this]

/-! ## The tests of the evaluator -/

/-- The ciphertext has level `L`, scale `sc`, parties among `S`, and its slots are `x` up to `η`. -/
structure Sees (s : String → Nega C.N ℤ) (S : List String) (L : ℕ) (sc : ℚ) (ct : CCt C)
    (x : ℕ → ℂ) (η : ℝ) : Prop where
  wf : ct.ct.Wf L false
  lt : L < C.nQ
  parties : ∀ id ∈ ct.ct.parties, id ∈ S
  scale : ct.scale = sc
  val : ∃ m, ct.ct.Carries s L m ∧ ∀ j < C.N / 2, ‖islot m j / sc - x j‖ ≤ η

/-- Adding two ciphertexts of the same level and scale. -/
theorem Sees.add (hC : C.Good) (hfl : prm.fl.Ok) {ev : Ev C} (hok : ev.Ok) {L : ℕ} {sc : ℚ}
    {a b : CCt C} {x y : ℕ → ℂ} {η θ : ℝ} (ha : Sees s S L sc a x η) (hb : Sees s S L sc b y θ)
    (π : Sched) : ∃ ev' r, ev.AddNew prm a b π = .ok (ev', r) ∧ ev'.Ok ∧
      Sees s S L sc r (fun j => x j + y j) (η + θ) := by
  have hsc : a.scale = b.scale := ha.scale.trans hb.scale.symm
  have I : BinIn prm ev a b L L := ⟨hok, ha.wf, hb.wf, ha.lt, hb.lt, hfl, by
    rw [hsc, alignInt_self]; norm_num, by rw [hsc, alignInt_self]; norm_num⟩
  obtain ⟨pool, r, e1, hp, hr⟩ := addNew_spec hC I π
  obtain ⟨ev', r', e2, h2⟩ := C11_AddNew hC I hsc π
  obtain ⟨rfl, rfl⟩ : { ev with pool := pool } = ev' ∧ (⟨r, max a.scale b.scale⟩ : CCt C) = r' := by
    have := e1.symm.trans e2
    simpa using this
  rw [min_self] at hr h2
  obtain ⟨ma, hma, xa⟩ := ha.val
  obtain ⟨mb, hmb, xb⟩ := hb.val
  refine ⟨_, _, e1, ⟨hok.ksw, hp⟩, hr.toWf (mem_insert_self _ _), ha.lt, fun id hid => ?_, ?_,
    ma + mb, fun i hi => ?_, fun j hj => ?_⟩
  · rw [hr.parties (by simp [zero_notMem_parties])] at hid
    rcases mem_union.mp hid with h | h
    exacts [ha.parties id h, hb.parties id h]
  · show max a.scale b.scale = sc
    rw [hsc, max_self, hb.scale]
  · rw [h2 s i hi, hma i hi, hmb i hi, map_add]
  · rw [islot, slot_add, add_div, add_sub_add_comm]
    exact (norm_add_le _ _).trans (add_le_add (xa j hj) (xb j hj))

theorem Sees.congr {L : ℕ} {sc : ℚ} {ct : CCt C} {x y : ℕ → ℂ} {η θ : ℝ} (h : Sees s S L sc ct x η)
    (hx : ∀ j < C.N / 2, x j = y j) (hη : η ≤ θ) : Sees s S L sc ct y θ := by
  obtain ⟨m, h1, h2⟩ := h.val
  exact ⟨h.wf, h.lt, h.parties, h.scale, m, h1, fun j hj => by rw [← hx j hj]; exact (h2 j hj).trans hη⟩

/-- The messages while the sum is formed: the first one has become `c z`, the others are `z`. -/
def msgsAt (n t : ℕ) (c z : ℂ) : List (List ℂ) :=
  (List.replicate n (List.replicate t z)).set 0 (List.replicate t c)

theorem msgsAt_zero {n t : ℕ} (hn : 0 < n) (c z : ℂ) :
    (msgsAt n t c z).getD 0 [] = List.replicate t c := by
  unfold msgsAt
  rw [List.getD_eq_getElem?_getD, List.getElem?_set_self (by simpa using hn)]
  rfl

theorem msgsAt_succ {n t i : ℕ} (hn : i < n) (hi : i ≠ 0) (c z : ℂ) :
    (msgsAt n t c z).getD i [] = List.replicate t z := by
  unfold msgsAt
  rw [List.getD_eq_getElem?_getD, List.getElem?_set_ne (by omega)]
  simp [hn]

/-- One round of the loop; the round with `i = 0` doubles the first message. -/
theorem bump_msgsAt {n t i : ℕ} (hi : i < n) (c z : ℂ) (h0 : i = 0 → c = z) :
    bump (msgsAt n t c z) i = msgsAt n t (c + z) z := by
  have hn : 0 < n := by omega
  have hx : (msgsAt n t c z).getD i [] = List.replicate t z := by
    by_cases h : i = 0
    · subst h; rw [msgsAt_zero hn, h0 rfl]
    · exact msgsAt_succ hi h c z
  unfold bump
  simp only [msgsAt_zero hn, hx, List.length_replicate]
  have : (List.range t).map (fun j => (List.replicate t c).getD j 0 + (List.replicate t z).getD j 0) =
      List.replicate t (c + z) := by
    refine List.ext_getElem (by simp) fun j h1 h2 => ?_
    have hj : j < t := by simpa using h2
    simp [hj]
  rw [this]
  unfold msgsAt
  rw [List.set_set]

theorem sumLoop_spec (hC : C.Good) (hfl : prm.fl.Ok) {L : ℕ} {sc : ℚ} {z : ℂ} {η : ℝ} {n t : ℕ}
    (π : ℕ → Sched) (cts : List (CCt C)) (hc : ∀ c ∈ cts, Sees s S L sc c (fun _ => z) η) :
    ∀ (i : ℕ) (ev : Ev C) (ct : CCt C) (θ : ℝ), ev.Ok →
    Sees s S L sc ct (fun _ => ((i + 1 : ℕ) : ℂ) * z) θ → i + cts.length = n →
    ∃ ev' ct', sumLoop prm π i cts ev ct (msgsAt n t (((i + 1 : ℕ) : ℂ) * z) z) =
        .ok (ev', ct', msgsAt n t (((n + 1 : ℕ) : ℂ) * z) z) ∧ ev'.Ok ∧
      Sees s S L sc ct' (fun _ => ((n + 1 : ℕ) : ℂ) * z) (θ + cts.length * η) := by
  induction cts with
  | nil =>
    intro i ev ct θ hok h hn
    obtain rfl : i = n := by simpa using hn
    exact ⟨ev, ct, rfl, hok, by simpa using h⟩
  | cons c l ih =>
    intro i ev ct θ hok h hn
    obtain ⟨ev1, ct1, e1, hok1, h1⟩ := h.add hC hfl hok (hc c (by simp)) (π i)
    have ez : ((i + 1 : ℕ) : ℂ) * z + z = ((i + 1 + 1 : ℕ) : ℂ) * z := by push_cast; ring
    obtain ⟨ev2, ct2, e2, hok2, h2⟩ := ih (fun c hc' => hc c (by simp [hc'])) (i + 1) ev1 ct1 (θ + η)
      hok1 (h1.congr (fun _ _ => ez) le_rfl) (by simp only [List.length_cons] at hn; omega)
    refine ⟨ev2, ct2, ?_, hok2, h2.congr (fun _ _ => rfl) (le_of_eq ?_)⟩
    · rw [sumLoop, e1, Go.ok_bind]
      dsimp only
      rw [bump_msgsAt (by simp only [List.length_cons] at hn; omega) _ _ (by rintro rfl; simp), ez]
      exact e2
    · push_cast [List.length_cons]
      ring

/-- A fresh test vector with all slots `z`. -/
theorem IsVec.sees (hC : C.Good) (hs : 0 < prm.scale) {M ε δ W : ℝ}
    (hE : E.Accurate prm.scale (C.N / 2) M ε δ) {d : Draw C} {id : String} (hid : id ∈ S) {z : ℂ}
    {m : List ℂ} {ct : CCt C} (h : IsVec E prm s e d id z z m ct) (hz : ‖z‖ ≤ M)
    (hW : ∀ j < C.N / 2, ‖islot (noise s e d id) j‖ ≤ W) :
    Sees s S C.lq prm.scale ct (fun _ => z) (ε + W / prm.scale) := by
  have hm := h.msg
  rw [testMsg_const] at hm
  subst hm
  refine ⟨h.wf, by have := hC.nQ_pos; unfold Ctx.lq; omega, by rw [h.parties]; simpa using hid, h.scale,
    _, h.carries, fun j hj => ?_⟩
  have := enc_slots hE hs (l := List.replicate (C.N / 2) z) (by simp)
    (fun x hx => by rw [List.eq_of_mem_replicate hx]; exact hz) hW hj
  simpa [hj] using this

/-- What holds before the sums are formed: keys for the users, an accurate encoder, the states of
encryptor, decryptor and evaluator, the size `W` of the encryptions' noise. -/
structure Ready (E : Encoder C (List ℂ)) (prm : CPar C) (kb : KeyBag C) (s e : String → Nega C.N ℤ)
    (S : List String) (enc : CEnc C) (dec : CDec C) (ev : Ev C) (users : List String) (d : ℕ → Draw C)
    (M ε δ W : ℝ) : Prop where
  good : C.Good
  pow : ∃ logN, C.N = 2 ^ logN ∧ 1 ≤ logN
  fl : prm.fl.Ok
  scale : 0 < prm.scale
  keys : Keys kb s e S
  encoder : E.Accurate prm.scale (C.N / 2) M ε δ
  encOk : EncOk prm enc
  decOk : dec.pool.isNTT = false
  evOk : ev.Ok
  usersIn : ∀ id ∈ users, id ∈ S
  nonempty : users ≠ []
  noiseLe : ∀ k id, users[k]? = some id → ∀ j < C.N / 2, ‖islot (noise s e (d k) id) j‖ ≤ W

/-- The common part of the tests: if the operation, applied to a ciphertext whose slots are all
`(n+1) z`, gives a ciphertext with slots `x`, then the test compares the constant message with
numbers close to `x`. -/
theorem testSum_spec {enc : CEnc C} {dec : CDec C} {ev : Ev C} {users : List String} {d : ℕ → Draw C}
    {M ε δ W : ℝ} (R : Ready E prm kb s e S enc dec ev users d M ε δ W) {z : ℂ} (hz : ‖z‖ ≤ M)
    {op : List ℂ → Ev C → CCt C → Go (Ev C × CCt C)} {cmp : List ℂ → List ℂ → Bool} (π : ℕ → Sched)
    (π' : Sched) {L : ℕ} {sc : ℚ} (hsc : 0 < sc) {x : ℕ → ℂ} {η X : ℝ}
    (hop : ∀ ev ct, ev.Ok → Sees s S C.lq prm.scale ct
        (fun _ => ((users.length + 1 : ℕ) : ℂ) * z) ((users.length + 1 : ℕ) * (ε + W / prm.scale)) →
      ∃ ev' r, op (List.replicate (C.N / 2) (((users.length + 1 : ℕ) : ℂ) * z)) ev ct = .ok (ev', r) ∧
        Sees s S L sc r x η)
    (hx : ∀ j < C.N / 2, ‖x j‖ ≤ X) (hM : X + η ≤ M)
    (hQ : 2 * (sc * M) < C.qProd (min L dec.pool.level)) :
    ∃ out, testSum op cmp z E prm kb enc dec ev users d π π' =
        .ok (cmp (List.replicate (C.N / 2) (((users.length + 1 : ℕ) : ℂ) * z)) out) ∧
      out.length = C.N / 2 ∧ ∀ j < C.N / 2, ‖out.getD j 0 - x j‖ ≤ η + δ := by
  obtain ⟨logN, hN, hlog⟩ := R.pow
  obtain ⟨enc', ms, cts, e1, -, l1, l2, hv⟩ := vectors_spec (E := E) R.good R.keys z z d users
    R.usersIn 0 enc R.encOk
  simp only [Nat.zero_add] at hv
  have hcts : ∀ c ∈ cts, Sees s S C.lq prm.scale c (fun _ => z) (ε + W / prm.scale) := by
    intro c hc
    obtain ⟨k, hk, rfl⟩ := List.getElem_of_mem hc
    obtain ⟨m, ct, g1, g2, v⟩ := hv k (users[k]'(by omega)) (List.getElem?_eq_getElem _)
    obtain rfl : cts[k] = ct := by rw [List.getElem?_eq_getElem hk] at g2; exact Option.some.inj g2
    exact v.sees R.good R.scale R.encoder (R.usersIn _ (List.getElem_mem _)) hz
      (R.noiseLe k _ (List.getElem?_eq_getElem _))
  have hlen : 0 < users.length := List.length_pos_iff.mpr R.nonempty
  have hms : ms = msgsAt users.length (C.N / 2) (((0 + 1 : ℕ) : ℂ) * z) z := by
    have e0 : msgsAt users.length (C.N / 2) (((0 + 1 : ℕ) : ℂ) * z) z =
        List.replicate users.length (List.replicate (C.N / 2) z) := by
      unfold msgsAt
      obtain ⟨n, hn⟩ : ∃ n, users.length = n + 1 := ⟨users.length - 1, by omega⟩
      rw [hn]
      simp [List.replicate_succ]
    rw [e0]
    refine List.ext_getElem (by simpa using l1) fun k h1 h2 => ?_
    obtain ⟨m, ct, g1, g2, v⟩ := hv k (users[k]'(by omega)) (List.getElem?_eq_getElem _)
    rw [List.getElem?_eq_getElem h1] at g1
    rw [Option.some.inj g1, v.msg, testMsg_const]
    simp
  cases hc : cts with
  | nil => rw [hc] at l2; simp at l2; omega
  | cons c l =>
    rw [hc] at e1 l2 hcts
    obtain ⟨ev1, ct1, e2, hok1, h1⟩ := sumLoop_spec (t := C.N / 2) (n := users.length) R.good R.fl π
      (c :: l) hcts 0 ev c (ε + W / prm.scale) R.evOk
      ((hcts c (by simp)).congr (fun _ _ => by simp) le_rfl) (by simpa using l2)
    rw [← hms] at e2
    obtain ⟨ev2, r, e3, h3⟩ := hop ev1 ct1 hok1 (h1.congr (fun _ _ => rfl) (le_of_eq (by
      rw [l2]; push_cast; ring)))
    obtain ⟨m, hm, hslot⟩ := h3.val
    have hsize : ∀ j < C.N / 2, ‖islot m j / sc‖ ≤ M := by
      intro j hj
      have g1 := norm_add_le (islot m j / sc - x j) (x j)
      rw [sub_add_cancel] at g1
      have := hslot j hj
      have := hx j hj
      linarith
    obtain ⟨dec', e4, -, -⟩ := ok_of_decrypt (E := E) R.good R.keys R.decOk h3.wf h3.lt h3.parties hm
      (fits_of_slots hN hlog hsc hsize hQ) π'
    rw [h3.scale] at e4
    refine ⟨E.decode m sc, ?_, R.encoder.len m sc, fun j hj => ?_⟩
    · unfold testSum
      simp only [e1, Go.ok_bind, e2, e3, e4, msgsAt_zero hlen, R.encoder.len, List.length_replicate,
        ne_eq, not_true_eq_false, if_false]
    · have g1 := R.encoder.dec m sc hsc hsize j hj
      have g2 := norm_add_le ((E.decode m sc).getD j 0 - islot m j / sc) (islot m j / sc - x j)
      rw [sub_add_sub_cancel] at g2
      have := hslot j hj
      linarith

/-- Close numbers pass the assertions. -/
theorem checkC_of_close (hs : 0 < prm.scale) {logSlots slack n : ℕ} {f : ℕ → ℂ} {η : ℝ}
    (hf : ∀ i < n, ‖f i‖ ≤ η) (hη : prm.scale * η ≤ 2 ^ (logSlots + slack)) :
    checkC prm logSlots slack n f = true := by
  have hsc : (0 : ℝ) < prm.scale := by exact_mod_cast hs
  rw [checkC_iff hs]
  intro i hi
  have h1 : η ≤ 2 ^ (logSlots + slack) / prm.scale := by
    rw [le_div_iff₀ hsc]; linarith
  exact ⟨((Complex.abs_re_le_norm _).trans (hf i hi)).trans h1,
    ((Complex.abs_im_le_norm _).trans (hf i hi)).trans h1⟩

/-- The messages of the rotation and conjugation tests. -/
def zRot (n : ℕ) : ℂ := ⟨0.5 / n, 1 / n⟩

theorem zRot_norm {n : ℕ} (hn : 0 < n) : ‖((n + 1 : ℕ) : ℂ) * zRot n‖ ≤ 3 := by
  have hn' : (1 : ℝ) ≤ n := by exact_mod_cast hn
  rw [norm_mul, Complex.norm_natCast]
  have h1 : ‖zRot n‖ ≤ 0.5 / n + 1 / n := by
    refine (Complex.norm_le_abs_re_add_abs_im _).trans (le_of_eq ?_)
    show |(0.5 / n : ℝ)| + |(1 / n : ℝ)| = _
    rw [abs_of_nonneg (by positivity), abs_of_nonneg (by positivity)]
  calc ((n + 1 : ℕ) : ℝ) * ‖zRot n‖ ≤ ((n + 1 : ℕ) : ℝ) * (0.5 / n + 1 / n) := by gcongr
    _ = 1.5 * ((n + 1) / n) := by push_cast; field_simp; norm_num
    _ ≤ 1.5 * 2 := by
        gcongr
        rw [div_le_iff₀ (by linarith)]
        linarith
    _ = 3 := by norm_num

theorem zRot_norm' {n : ℕ} (hn : 0 < n) : ‖zRot n‖ ≤ 3 := by
  have h := zRot_norm hn
  rw [norm_mul, Complex.norm_natCast] at h
  have : (1 : ℝ) ≤ ((n + 1 : ℕ) : ℝ) := by push_cast; linarith [Nat.cast_nonneg (α := ℝ) n]
  nlinarith [norm_nonneg (zRot n)]

theorem emod_lt {n : ℕ} (hn : 0 < n) (a : ℤ) : (a % (n : ℤ)).toNat < n := by
  have h1 := Int.emod_nonneg a (show (n : ℤ) ≠ 0 by omega)
  have h2 := Int.emod_lt_of_pos a (show (0 : ℤ) < n by omega)
  omega

/-- The comparison of the rotation test accepts everything close to the constant message. -/
theorem rotCheck_const (hs : 0 < prm.scale) {logSlots : ℕ} (rot : ℤ) {n : ℕ} {z : ℂ}
    {out : List ℂ} (hout : out.length = n) {η : ℝ} (h : ∀ j < n, ‖out.getD j 0 - z‖ ≤ η)
    (hη : prm.scale * η ≤ 2 ^ (logSlots + 11)) :
    rotCheck prm logSlots rot (List.replicate n z) out = true := by
  unfold rotCheck
  refine checkC_of_close hs (fun i hi => ?_) hη
  rw [hout] at hi
  have hn : 0 < n := by omega
  have hz : ∀ j < n, (List.replicate n z).getD j 0 = z := fun j hj => by simp [hj]
  rw [List.length_replicate]
  split_ifs
  · rw [hz _ (emod_lt hn _)]
    exact h i hi
  · rw [hz i hi, norm_sub_rev]
    exact h _ (emod_lt hn _)

variable {enc : CEnc C} {dec : CDec C} {ev : Ev C} {users : List String} {d : ℕ → Draw C}
  {M ε δ W : ℝ}

/-- `DropLevel(ct, 1)`. -/
theorem Sees.drop {L : ℕ} {sc : ℚ} {ct : CCt C} {x : ℕ → ℂ} {η : ℝ} (h : Sees s S L sc ct x η)
    (hL : 1 ≤ L) (π : Sched) : ∃ c, dropLevel ct.ct 1 (π.f 0 ct.ct.value.keys) = .ok c ∧
      Sees s S (L - 1) sc ⟨c, ct.scale⟩ x η := by
  obtain ⟨c, e1, h1, h2, -, h4⟩ := C15_DropLevel h.wf hL (π.isOrder 0 ct.ct.value)
  obtain ⟨m, hm, hx⟩ := h.val
  exact ⟨c, e1, h1, by have := h.lt; omega, by rw [h2]; exact h.parties, h.scale, m,
    fun i hi => by rw [h4 s i hi]; exact hm i (by omega), hx⟩

/-- **C72**, `testEvaluatorRot` with any operation in the place of `RotateNew`: it passes for every
amount `rot` as soon as the operation keeps the slots of a constant message. -/
theorem C72_Rot_any (R : Ready E prm kb s e S enc dec ev users d M ε δ W) (hlq : 1 ≤ C.lq)
    {rotate : Ev C → CCt C → Go (Ev C × CCt C)} {η : ℝ}
    (hrot : ∀ (z : ℂ) ev ct, ev.Ok → Sees s S (C.lq - 1) prm.scale ct (fun _ => z)
        ((users.length + 1 : ℕ) * (ε + W / prm.scale)) →
      ∃ ev' r, rotate ev ct = .ok (ev', r) ∧ Sees s S (C.lq - 1) prm.scale r (fun _ => z) η)
    (hM3 : 3 ≤ M) (hM : 3 + η ≤ M)
    (hQ : 2 * (prm.scale * M) < C.qProd (min (C.lq - 1) dec.pool.level)) {logSlots : ℕ}
    (htol : prm.scale * (η + δ) ≤ 2 ^ (logSlots + 11)) (rot : ℤ) (π : ℕ → Sched) (πd π' : Sched) :
    testRotWith rotate rot E prm logSlots kb enc dec ev users d π πd π' = .ok true := by
  have hlen : 0 < users.length := List.length_pos_iff.mpr R.nonempty
  obtain ⟨out, e1, h1, h2⟩ := testSum_spec R (z := zRot users.length) ((zRot_norm' hlen).trans hM3)
    (op := fun _ ev ct => do
      let c ← dropLevel ct.ct 1 (πd.f 0 ct.ct.value.keys)
      rotate ev ⟨c, ct.scale⟩) (cmp := rotCheck prm logSlots rot) π π' R.scale
    (x := fun _ => ((users.length + 1 : ℕ) : ℂ) * zRot users.length) (η := η) (X := 3)
    (L := C.lq - 1)
    (fun ev ct hok hct => by
      obtain ⟨c, g1, g2⟩ := hct.drop hlq πd
      obtain ⟨ev', r, g3, g4⟩ := hrot _ ev _ hok g2
      refine ⟨ev', r, ?_, g4⟩
      rw [g1, Go.ok_bind, g3])
    (fun _ _ => zRot_norm hlen) hM hQ
  unfold testRotWith
  change testSum _ _ (zRot users.length) _ _ _ _ _ _ _ _ _ _ = _
  rw [e1, rotCheck_const R.scale rot h1 h2 htol]

/-- **C72**, the rotation test is blind: with the rotation left out altogether it still passes, for
every amount `rot` that is drawn. -/
theorem C72_Rot_blind (R : Ready E prm kb s e S enc dec ev users d M ε δ W) (hlq : 1 ≤ C.lq)
    (hM3 : 3 ≤ M) (hM : 3 + (users.length + 1 : ℕ) * (ε + W / prm.scale) ≤ M)
    (hQ : 2 * (prm.scale * M) < C.qProd (min (C.lq - 1) dec.pool.level)) {logSlots : ℕ}
    (htol : prm.scale * ((users.length + 1 : ℕ) * (ε + W / prm.scale) + δ) ≤ 2 ^ (logSlots + 11))
    (rot : ℤ) (π : ℕ → Sched) (πd π' : Sched) :
    testRotWith (fun ev ct => .ok (ev, ct)) rot E prm logSlots kb enc dec ev users d π πd π' =
      .ok true :=
  C72_Rot_any R hlq (fun _ ev ct _ h => ⟨ev, ct, rfl, h⟩) hM3 hM hQ htol rot π πd π'

theorem Sees.sub {L : ℕ} {sc : ℚ} {ct : CCt C} {x : ℕ → ℂ} {η : ℝ} (h : Sees s S L sc ct x η) :
    ct.ct.parties ⊆ S.toFinset := fun id hi => List.mem_toFinset.mpr (h.parties id hi)

/-- A bounded error of the result. -/
theorem slot_close {sc : ℚ} (hsc : 0 < sc) {y w x : ℂ} {η θ : ℝ} (h1 : ‖w / sc - x‖ ≤ η)
    (h2 : ‖y - w‖ ≤ θ) : ‖y / sc - x‖ ≤ η + θ / sc := by
  have hsR : (0 : ℝ) < sc := by exact_mod_cast hsc
  have e : y / (sc : ℂ) - x = (w / (sc : ℂ) - x) + (y - w) / (sc : ℂ) := by ring
  rw [e]
  refine (norm_add_le _ _).trans (add_le_add h1 ?_)
  rw [norm_div, show (sc : ℂ) = ((sc : ℝ) : ℂ) by push_cast; rfl, Complex.norm_real,
    Real.norm_eq_abs, abs_of_pos hsR]
  exact div_le_div_of_nonneg_right h2 hsR.le

/-- Rotation of a ciphertext with constant slots. -/
theorem Sees.rotate {logN : ℕ} (hN : C.N = 2 ^ logN) (hlog : 1 ≤ logN) (hC : C.Good) (hF : C.Fits)
    {ev : Ev C} (hok : ev.Ok) {ct : CCt C} {L : ℕ} {sc : ℚ} (hsc : 0 < sc) {z : ℂ} {η : ℝ}
    (h : Sees s S L sc ct (fun _ => z) η) (k : ℤ) {rkSet : RotationKeySet (RotKey C)}
    {rk : ℕ → String → RotKey C} {a : ℕ → SwKey C}
    (hk : ∀ idx, rotNeeds prm.crs (slotIdx C.N k) idx →
      KeysAt prm.crs rkSet S.toFinset rk a idx) {D T B : ℤ} (hD0 : 0 ≤ D) (hT0 : 0 ≤ T)
    (hB0 : 0 ≤ B)
    (heq : ∀ idx, rotNeeds prm.crs (slotIdx C.N k) idx → RotFor S.toFinset rk a s T B idx)
    (hD : ∀ k < C.beta L, (2 * blockSetProd C L k : ℤ) ≤ D) (π : Sched) :
    ∃ ev' r, ev.RotateNew prm ct k rkSet π = .ok (ev', r) ∧
      Sees s S L sc r (fun _ => z) (η + rotEta C prm.crs S.toFinset.card D T B L k / sc) := by
  obtain ⟨m, hm, hx⟩ := h.val
  obtain ⟨ev', r, m', e1, -, w, hpar, hsc', hm', herr⟩ := C37_RotateNew_slots hN hlog hC hF hok h.lt
    h.wf k (rk := rk) (a := a) (fun idx hi => ⟨(hk idx hi).1, fun id hid => (hk idx hi).2 id (h.sub hid)⟩)
    (s := s) (T := T) (B := B) (fun idx hi => by
      obtain ⟨⟨e, he1, he2⟩, h2⟩ := heq idx hi
      exact ⟨⟨e, fun id hi => he1 id (h.sub hi), fun id hi => he2 id (h.sub hi)⟩,
        fun id hi => h2 id (h.sub hi)⟩) hD π hm
  have hP : (0 : ℝ) < C.P := by exact_mod_cast hC.P_pos
  have hn : 0 < C.N / 2 := by
    have : 2 ≤ C.N := by rw [hN]; exact (pow_le_pow_right₀ (by norm_num) hlog : 2 ^ 1 ≤ 2 ^ logN)
    omega
  refine ⟨ev', r, e1, w, h.lt, by rw [hpar]; exact h.parties, hsc'.trans h.scale, m', hm',
    fun j hj => slot_close hsc (hx _ (emod_lt hn ((j : ℤ) + k))) ?_⟩
  unfold rotEta
  rw [le_div_iff₀ hP, mul_comm]
  refine (herr j).trans ?_
  have h3 : ((rotCount prm.crs (slotIdx C.N k) * (ct.ct.parties.card * extNoise C L D T B) : ℤ)
      : ℝ) ≤ ((rotCount prm.crs (slotIdx C.N k) * (S.toFinset.card * extNoise C L D T B) : ℤ) : ℝ) := by
    have := extNoise_nonneg (C := C) (l := L) hD0 hT0 hB0
    have hc := card_le_card h.sub
    exact_mod_cast by gcongr
  gcongr

/-- **C72**, a wrong rotation passes: when the program rotates by `k` where the test drew `rot`, the
test passes for every `k` and `rot` — the tolerance pays for the noise of the rotation by `k`, and
nothing depends on `rot`. -/
theorem C72_Rot_wrong (R : Ready E prm kb s e S enc dec ev users d M ε δ W) (hlq : 1 ≤ C.lq)
    (hF : C.Fits) (k : ℤ) {rkSet : RotationKeySet (RotKey C)}
    {rk : ℕ → String → RotKey C} {a : ℕ → SwKey C}
    (hk : ∀ idx, rotNeeds prm.crs (slotIdx C.N k) idx →
      KeysAt prm.crs rkSet S.toFinset rk a idx) {D T B : ℤ} (hD0 : 0 ≤ D) (hT0 : 0 ≤ T)
    (hB0 : 0 ≤ B)
    (heq : ∀ idx, rotNeeds prm.crs (slotIdx C.N k) idx → RotFor S.toFinset rk a s T B idx)
    (hD : ∀ k < C.beta (C.lq - 1), (2 * blockSetProd C (C.lq - 1) k : ℤ) ≤ D) {η : ℝ}
    (hη : η = (users.length + 1 : ℕ) * (ε + W / prm.scale) +
      rotEta C prm.crs S.toFinset.card D T B (C.lq - 1) k / prm.scale)
    (hM3 : 3 ≤ M) (hM : 3 + η ≤ M)
    (hQ : 2 * (prm.scale * M) < C.qProd (min (C.lq - 1) dec.pool.level)) {logSlots : ℕ}
    (htol : prm.scale * (η + δ) ≤ 2 ^ (logSlots + 11)) (rot : ℤ) (π : ℕ → Sched)
    (πd πo π' : Sched) :
    testRotWith (fun ev ct => ev.RotateNew prm ct k rkSet πo) rot E prm logSlots kb enc dec ev users d
      π πd π' = .ok true := by
  obtain ⟨logN, hN, hlog⟩ := R.pow
  subst hη
  exact C72_Rot_any R hlq (fun z ev ct hok h =>
    h.rotate hN hlog R.good hF hok R.scale k hk hD0 hT0 hB0 heq hD πo) hM3 hM hQ htol rot π πd π'

/-- **C72**, `testEvaluatorRot` passes. -/
theorem C72_Rot_pass (R : Ready E prm kb s e S enc dec ev users d M ε δ W) (hlq : 1 ≤ C.lq)
    (hF : C.Fits) (rot : ℤ) {rkSet : RotationKeySet (RotKey C)}
    {rk : ℕ → String → RotKey C} {a : ℕ → SwKey C}
    (hk : ∀ idx, rotNeeds prm.crs (slotIdx C.N rot) idx →
      KeysAt prm.crs rkSet S.toFinset rk a idx) {D T B : ℤ} (hD0 : 0 ≤ D) (hT0 : 0 ≤ T)
    (hB0 : 0 ≤ B)
    (heq : ∀ idx, rotNeeds prm.crs (slotIdx C.N rot) idx → RotFor S.toFinset rk a s T B idx)
    (hD : ∀ k < C.beta (C.lq - 1), (2 * blockSetProd C (C.lq - 1) k : ℤ) ≤ D) {η : ℝ}
    (hη : η = (users.length + 1 : ℕ) * (ε + W / prm.scale) +
      rotEta C prm.crs S.toFinset.card D T B (C.lq - 1) rot / prm.scale)
    (hM3 : 3 ≤ M) (hM : 3 + η ≤ M)
    (hQ : 2 * (prm.scale * M) < C.qProd (min (C.lq - 1) dec.pool.level)) {logSlots : ℕ}
    (htol : prm.scale * (η + δ) ≤ 2 ^ (logSlots + 11)) (π : ℕ → Sched) (πd πo π' : Sched) :
    testEvaluatorRot rot rkSet E prm logSlots kb enc dec ev users d π πd πo π' = .ok true :=
  C72_Rot_wrong R hlq hF rot hk hD0 hT0 hB0 heq hD hη hM3 hM hQ htol rot π πd πo π'

theorem zConj (n : ℕ) : ‖starRingEnd ℂ (((n + 1 : ℕ) : ℂ) * zRot n)‖ = ‖((n + 1 : ℕ) : ℂ) * zRot n‖ :=
  RCLike.norm_conj _

/-- Conjugation. -/
theorem Sees.conj {logN : ℕ} (hN : C.N = 2 ^ logN) (hC : C.Good) (hF : C.Fits)
    {ev : Ev C} (hok : ev.Ok) {ct : CCt C} {sc : ℚ} (hsc : 0 < sc) {x : ℕ → ℂ} {η : ℝ}
    (h : Sees s S C.lq sc ct x η) {ckSet : KeySet (ConjKey C)} {ck : String → ConjKey C}
    {u : SwKey C} (hck : ∀ id ∈ S, ckSet.get id = .ok (ck id)) (hu : prm.crs.get? (-2) = some u)
    {ec : String → ℕ → Nega C.N ℤ}
    (hk : ∀ id ∈ S, SwEq (ck id).value u (s id) (Nega.auto (2 * C.N - 1) (s id)) (ec id))
    {D T B : ℤ} (hD0 : 0 ≤ D) (hT0 : 0 ≤ T) (hB0 : 0 ≤ B)
    (hD : ∀ k < C.beta C.lq, (2 * blockSetProd C C.lq k : ℤ) ≤ D)
    (hs : ∀ id ∈ S, (s id).Bdd T) (he : ∀ id ∈ S, ∀ k, (ec id k).Bdd B) (π : Sched) :
    ∃ ev' r, ev.ConjugateNew prm ct ckSet π = .ok (ev', r) ∧
      Sees s S C.lq sc r (fun j => starRingEnd ℂ (x j))
        (η + (C.N * ((S.toFinset.card * extNoise C C.lq D T B : ℤ) : ℝ) / C.P) / sc) := by
  obtain ⟨m, hm, hx⟩ := h.val
  obtain ⟨ev', r, m', e1, -, w, hpar, hsc', hm', herr⟩ := C37_ConjugateNew_slots hN hC hF hok h.wf h.lt
    (fun id hi => hck id (h.parties id hi)) hu (fun id hi => hk id (h.parties id hi)) hD
    (fun id hi => hs id (h.parties id hi)) (fun id hi => he id (h.parties id hi)) π hm
  have hP : (0 : ℝ) < C.P := by exact_mod_cast hC.P_pos
  refine ⟨ev', r, e1, w, h.lt, by rw [hpar]; exact h.parties, hsc'.trans h.scale, m', hm',
    fun j hj => slot_close (w := starRingEnd ℂ (islot m j)) hsc ?_ ?_⟩
  · rw [show starRingEnd ℂ (islot m j) / (sc : ℂ) - starRingEnd ℂ (x j) =
      starRingEnd ℂ (islot m j / sc - x j) by simp, RCLike.norm_conj]
    exact hx j hj
  · rw [le_div_iff₀ hP, mul_comm]
    refine (herr j).trans ?_
    have h3 : ((ct.ct.parties.card * extNoise C C.lq D T B : ℤ) : ℝ) ≤
        ((S.toFinset.card * extNoise C C.lq D T B : ℤ) : ℝ) := by
      have := extNoise_nonneg (C := C) (l := C.lq) hD0 hT0 hB0
      have hc := card_le_card h.sub
      exact_mod_cast by gcongr
    gcongr

/-- **C72**, `testEvaluatorConj` passes when the tolerance pays for the noise. -/
theorem C72_Conj_pass (R : Ready E prm kb s e S enc dec ev users d M ε δ W)
    (hF : C.Fits) {ckSet : KeySet (ConjKey C)} {ck : String → ConjKey C}
    {u : SwKey C} (hck : ∀ id ∈ S, ckSet.get id = .ok (ck id)) (hu : prm.crs.get? (-2) = some u)
    {ec : String → ℕ → Nega C.N ℤ}
    (hk : ∀ id ∈ S, SwEq (ck id).value u (s id) (Nega.auto (2 * C.N - 1) (s id)) (ec id))
    {D T B : ℤ} (hD0 : 0 ≤ D) (hT0 : 0 ≤ T) (hB0 : 0 ≤ B)
    (hD : ∀ k < C.beta C.lq, (2 * blockSetProd C C.lq k : ℤ) ≤ D)
    (hs : ∀ id ∈ S, (s id).Bdd T) (he : ∀ id ∈ S, ∀ k, (ec id k).Bdd B) {η : ℝ}
    (hη : η = (users.length + 1 : ℕ) * (ε + W / prm.scale) +
      (C.N * ((S.toFinset.card * extNoise C C.lq D T B : ℤ) : ℝ) / C.P) / prm.scale)
    (hM3 : 3 ≤ M) (hM : 3 + η ≤ M)
    (hQ : 2 * (prm.scale * M) < C.qProd (min C.lq dec.pool.level)) {logSlots : ℕ}
    (htol : prm.scale * (η + δ) ≤ 2 ^ (logSlots + 11)) (π : ℕ → Sched) (πo π' : Sched) :
    testEvaluatorConj ckSet E prm logSlots kb enc dec ev users d π πo π' = .ok true := by
  obtain ⟨logN, hN, hlog⟩ := R.pow
  subst hη
  have hlen : 0 < users.length := List.length_pos_iff.mpr R.nonempty
  obtain ⟨out, e1, h1, h2⟩ := testSum_spec R (z := zRot users.length) ((zRot_norm' hlen).trans hM3)
    (op := fun _ ev ct => ev.ConjugateNew prm ct ckSet πo)
    (cmp := fun msg out => checkC prm logSlots 11 out.length fun i =>
      out.getD i 0 - starRingEnd ℂ (msg.getD i 0)) π π' R.scale
    (x := fun _ => starRingEnd ℂ (((users.length + 1 : ℕ) : ℂ) * zRot users.length)) (X := 3)
    (L := C.lq)
    (fun ev ct hok hct => hct.conj hN R.good hF hok R.scale hck hu hk hD0 hT0 hB0 hD hs he πo)
    (fun _ _ => by rw [zConj]; exact zRot_norm hlen) hM hQ
  unfold testEvaluatorConj
  change testSum _ _ (zRot users.length) _ _ _ _ _ _ _ _ _ _ = _
  rw [e1]
  congr 1
  refine checkC_of_close R.scale (fun i hi => ?_) htol
  rw [h1] at hi
  have := h2 i hi
  simpa [hi] using this

/-- The product with one modulus dropped. -/
theorem Sees.square (hC : C.Good) (hF : C.Fits) (hfl : prm.fl.Ok) {ev : Ev C} (hok : ev.Ok)
    {ct : CCt C} {L : ℕ} {sc : ℚ} (hsc : 0 < sc) {x : ℕ → ℂ} {η X : ℝ} (h : Sees s S L sc ct x η)
    (hX : ∀ j < C.N / 2, ‖x j‖ ≤ X)
    {cr u : SwKey C} (hu : prm.crs.get? (-1) = some u) {rlk : RlkSet C} {rk : String → RelinKey C}
    (hrk : RlkFor rlk S.toFinset rk) {r : String → Nega C.N ℤ} {eb ed er : String → ℕ → Nega C.N ℤ}
    (hk : RelinFor S.toFinset rk cr u s r eb ed er) {D T B : ℤ} (hD0 : 0 ≤ D) (hT0 : 0 ≤ T)
    (hB0 : 0 ≤ B) (hD : digitMax C D) (hb : RelinBdd C S.toFinset s r eb ed er T B)
    (hn : RescaleBy prm.fl C.q prm.scale (prm.fl.rnd (sc * sc)) L 1) (π : Sched) :
    ∃ ev' rlk' out, ev.MulRelinNew prm ct ct true rlk π = .ok (ev', rlk', out) ∧
      Sees s S (L - 1) (prodScale prm.fl C.q L sc sc) out (fun j => x j * x j)
        (prodErr X X η η (mulEta C S.toFinset.card D T B L) (C.q L) sc sc
          (prodScale prm.fl C.q L sc sc)) := by
  obtain ⟨m, hm, hx⟩ := h.val
  have hsub := union_subset h.sub h.sub
  have hn' := hn
  rw [← h.scale] at hn'
  obtain ⟨ev', rlk', out, m', e1, w, hp, hsc', hm', herr⟩ := C21_MulRelinNew_slots hC hF hok
    true (fun _ => rfl) h.wf h.wf h.lt h.lt hu (RlkFor.mono hsub hrk) (RelinFor.mono hsub hk) hD
    (RelinBdd.mono hsub hb) (by rw [min_self]; exact hn') π hm hm
  rw [min_self] at w hsc' hm' herr
  have hq : 0 < C.q L := hC.posQ _
  have hP : (0 : ℝ) < C.P := by exact_mod_cast hC.P_pos
  refine ⟨ev', rlk', out, e1, w, by have := h.lt; omega, fun id hi => ?_, ?_, m', hm', fun j hj => ?_⟩
  · rw [hp, union_self] at hi; exact h.parties id hi
  · rw [hsc', h.scale]; rfl
  · refine prod_show hsc hsc (prodScale_pos hfl hq hsc hsc) hq (hx j hj) (hx j hj) (hX j hj) (hX j hj) ?_
    have := herr j
    rw [prod_range_one, Nat.sub_zero] at this
    have h1 : ((mulNoise C L ct.ct.parties.card ct.ct.parties.card D D D T B : ℤ) : ℝ)
        ≤ (mulNoise C L S.toFinset.card S.toFinset.card D D D T B : ℤ) := by
      exact_mod_cast mulNoise_mono hD0 hT0 hB0 (card_le_card h.sub) (card_le_card h.sub)
    have h2 : ((rescaleErr C L 1 (ct.ct.parties ∪ ct.ct.parties).card T : ℤ) : ℝ)
        ≤ (rescaleErr C L 1 S.toFinset.card T : ℤ) := by
      exact_mod_cast rescaleErr_mono hT0 (card_le_card hsub)
    unfold mulEta
    have h3 : ‖(C.q L : ℂ) * islot m' j - islot m j * islot m j‖ ≤
        C.N * ((mulNoise C L ct.ct.parties.card ct.ct.parties.card D D D T B +
          C.P * rescaleErr C L 1 (ct.ct.parties ∪ ct.ct.parties).card T : ℤ) : ℝ) / C.P := by
      rw [le_div_iff₀ hP, mul_comm]
      exact_mod_cast this
    refine h3.trans ?_
    push_cast
    rw [mul_add, add_div]
    refine add_le_add (by gcongr) ?_
    rw [mul_left_comm, mul_div_assoc, mul_comm, div_mul_cancel₀ _ hP.ne']
    gcongr

/-- The messages of the multiplication test. -/
def zMul (n : ℕ) : ℂ := ⟨0.1 / n, 1 / n⟩

theorem zMul_norm {n : ℕ} (hn : 0 < n) : ‖((n + 1 : ℕ) : ℂ) * zMul n‖ ≤ 3 := by
  have hn' : (1 : ℝ) ≤ n := by exact_mod_cast hn
  rw [norm_mul, Complex.norm_natCast]
  have h1 : ‖zMul n‖ ≤ 0.1 / n + 1 / n := by
    refine (Complex.norm_le_abs_re_add_abs_im _).trans (le_of_eq ?_)
    show |(0.1 / n : ℝ)| + |(1 / n : ℝ)| = _
    rw [abs_of_nonneg (by positivity), abs_of_nonneg (by positivity)]
  calc ((n + 1 : ℕ) : ℝ) * ‖zMul n‖ ≤ ((n + 1 : ℕ) : ℝ) * (0.1 / n + 1 / n) := by gcongr
    _ = 1.1 * ((n + 1) / n) := by push_cast; field_simp; norm_num
    _ ≤ 1.1 * 2 := by
        gcongr
        rw [div_le_iff₀ (by linarith)]
        linarith
    _ ≤ 3 := by norm_num

theorem zMul_norm' {n : ℕ} (hn : 0 < n) : ‖zMul n‖ ≤ 3 := by
  have h := zMul_norm hn
  rw [norm_mul, Complex.norm_natCast] at h
  have : (1 : ℝ) ≤ ((n + 1 : ℕ) : ℝ) := by push_cast; linarith [Nat.cast_nonneg (α := ℝ) n]
  nlinarith [norm_nonneg (zMul n)]

/-- **C72**, `testEvaluatorMul` passes when the tolerance pays for the noise: with `n` users the
square of `(n + 1) z` is compared, since the sum starts from the first ciphertext and adds it once
more. -/
theorem C72_Mul_pass (R : Ready E prm kb s e S enc dec ev users d M ε δ W) (hF : C.Fits)
    {cr u : SwKey C} (hu : prm.crs.get? (-1) = some u) {rk : String → RelinKey C}
    (hrk : RlkFor kb.rlkSet S.toFinset rk) {r : String → Nega C.N ℤ}
    {eb ed er : String → ℕ → Nega C.N ℤ}
    (hk : RelinFor S.toFinset rk cr u s r eb ed er) {D T B : ℤ} (hD0 : 0 ≤ D) (hT0 : 0 ≤ T)
    (hB0 : 0 ≤ B) (hD : digitMax C D) (hb : RelinBdd C S.toFinset s r eb ed er T B)
    (hn : RescaleBy prm.fl C.q prm.scale (prm.fl.rnd (prm.scale * prm.scale)) C.lq 1) {sc : ℚ}
    (hsc : sc = prodScale prm.fl C.q C.lq prm.scale prm.scale) {η : ℝ}
    (hη : η = prodErr 3 3 ((users.length + 1 : ℕ) * (ε + W / prm.scale))
      ((users.length + 1 : ℕ) * (ε + W / prm.scale)) (mulEta C S.toFinset.card D T B C.lq)
      (C.q C.lq) prm.scale prm.scale sc)
    (hM3 : 3 ≤ M) (hM : 9 + η ≤ M)
    (hQ : 2 * (sc * M) < C.qProd (min (C.lq - 1) dec.pool.level)) {logSlots : ℕ}
    (htol : prm.scale * (η + δ) ≤ 2 ^ (logSlots + 12)) (π : ℕ → Sched) (πo π' : Sched) :
    testEvaluatorMul E prm logSlots kb enc dec ev users d π πo π' = .ok true := by
  subst hη hsc
  have hlen : 0 < users.length := List.length_pos_iff.mpr R.nonempty
  obtain ⟨out, e1, h1, h2⟩ := testSum_spec R (z := zMul users.length) ((zMul_norm' hlen).trans hM3)
    (op := fun _ ev ct => do
      let (ev, _, r) ← ev.MulRelinNew prm ct ct true kb.rlkSet πo
      return (ev, r))
    (cmp := fun msg out => checkC prm logSlots 12 out.length fun i =>
      out.getD i 0 - msg.getD i 0 * msg.getD i 0) π π'
    (prodScale_pos R.fl (R.good.posQ C.lq) R.scale R.scale)
    (x := fun _ => (((users.length + 1 : ℕ) : ℂ) * zMul users.length) *
      (((users.length + 1 : ℕ) : ℂ) * zMul users.length)) (X := 9) (L := C.lq - 1)
    (fun ev ct hok hct => by
      obtain ⟨ev', rlk', r, g1, g2⟩ := hct.square R.good hF R.fl hok R.scale
        (fun _ _ => zMul_norm hlen) hu hrk hk hD0 hT0 hB0 hD hb hn πo
      exact ⟨ev', r, by simp only [g1, Go.ok_bind, Go.pure_eq], g2⟩)
    (fun _ _ => by
      have := zMul_norm hlen
      rw [norm_mul]
      nlinarith [norm_nonneg (((users.length + 1 : ℕ) : ℂ) * zMul users.length)]) hM hQ
  unfold testEvaluatorMul
  change testSum _ _ (zMul users.length) _ _ _ _ _ _ _ _ _ _ = _
  rw [e1]
  congr 1
  refine checkC_of_close R.scale (fun i hi => ?_) htol
  rw [h1] at hi
  have := h2 i hi
  simpa [hi] using this

/-- Subtracting two ciphertexts of the same level and scale. -/
theorem Sees.minus (hC : C.Good) (hfl : prm.fl.Ok) {ev : Ev C} (hok : ev.Ok) {L : ℕ} {sc : ℚ}
    {a b : CCt C} {x y : ℕ → ℂ} {η θ : ℝ} (ha : Sees s S L sc a x η) (hb : Sees s S L sc b y θ)
    (π : Sched) : ∃ ev' r, ev.SubNew prm a b π = .ok (ev', r) ∧
      Sees s S L sc r (fun j => x j - y j) (η + θ) := by
  have hsc : a.scale = b.scale := ha.scale.trans hb.scale.symm
  have I : BinIn prm ev a b L L := ⟨hok, ha.wf, hb.wf, ha.lt, hb.lt, hfl, by
    rw [hsc, alignInt_self]; norm_num, by rw [hsc, alignInt_self]; norm_num⟩
  obtain ⟨pool, r, e1, hp, hr⟩ := subNew_spec hC I π
  obtain ⟨ev', r', e2, h2⟩ := C12_SubNew hC I hsc π
  obtain ⟨rfl, rfl⟩ : { ev with pool := pool } = ev' ∧ (⟨r, max a.scale b.scale⟩ : CCt C) = r' := by
    have := e1.symm.trans e2
    simpa using this
  rw [min_self] at hr h2
  obtain ⟨ma, hma, xa⟩ := ha.val
  obtain ⟨mb, hmb, xb⟩ := hb.val
  refine ⟨_, _, e1, hr.toWf (mem_insert_self _ _), ha.lt, fun id hid => ?_, ?_,
    ma - mb, fun i hi => ?_, fun j hj => ?_⟩
  · rw [hr.parties (by simp [zero_notMem_parties])] at hid
    rcases mem_union.mp hid with h | h
    exacts [ha.parties id h, hb.parties id h]
  · show max a.scale b.scale = sc
    rw [hsc, max_self, hb.scale]
  · rw [h2 s i hi, hma i hi, hmb i hi, map_sub]
  · rw [islot, slot_sub, sub_div, sub_sub_sub_comm]
    exact (norm_sub_le _ _).trans (add_le_add (xa j hj) (xb j hj))

/-- A fresh test vector. -/
theorem IsVec.sees' (hC : C.Good) (hs : 0 < prm.scale) (hE : E.Accurate prm.scale (C.N / 2) M ε δ)
    {d : Draw C} (hd : d.Unit) {id : String} (hid : id ∈ S) {m : List ℂ} {ct : CCt C}
    (h : IsVec E prm s e d id ⟨-1, -1⟩ ⟨1, 1⟩ m ct) (hM : 2 ≤ M)
    (hW : ∀ j < C.N / 2, ‖islot (noise s e d id) j‖ ≤ W) :
    Sees s S C.lq prm.scale ct (fun j => m.getD j 0) (ε + W / prm.scale) ∧ m.length = C.N / 2 ∧
      ∀ j < C.N / 2, ‖m.getD j 0‖ ≤ 2 := by
  have hm := h.msg
  subst hm
  refine ⟨⟨h.wf, by have := hC.nQ_pos; unfold Ctx.lq; omega, by rw [h.parties]; simpa using hid,
    h.scale, _, h.carries, fun j hj => ?_⟩, testMsg_length _ _ _, fun j hj =>
    getD_norm_le (testMsg_norm hd) (by rwa [testMsg_length])⟩
  exact enc_slots hE hs (testMsg_length _ _ _) (fun x hx => (testMsg_norm hd x hx).trans hM) hW hj

/-- Decryption and decoding of a ciphertext with known slots, and the comparison of real parts. -/
theorem Sees.check {logN : ℕ} (hN : C.N = 2 ^ logN) (hlog : 1 ≤ logN) (hC : C.Good)
    (K : Keys kb s e S) (hs : 0 < prm.scale) (hE : E.Accurate prm.scale (C.N / 2) M ε δ)
    (hd : dec.pool.isNTT = false) {ct : CCt C} {L : ℕ} {sc : ℚ} (hsc' : 0 < sc) {x : ℕ → ℂ} {η X : ℝ}
    (h : Sees s S L sc ct x η) (hx : ∀ j < C.N / 2, ‖x j‖ ≤ X) (hM : X + η ≤ M) {Q : ℕ}
    (hQ : 2 * (sc * M) < Q) (hlev : Q = C.qProd (min L dec.pool.level)) (π : Sched) :
    ∃ dec' out, dec.Decrypt E ct kb.skSet π = .ok (dec', out) ∧ dec'.pool.isNTT = false ∧
      dec'.pool.level = min L dec.pool.level ∧ ∀ {logSlots : ℕ} {msg : List ℂ},
        msg.length = C.N / 2 → (∀ j < C.N / 2, msg.getD j 0 = x j) →
        prm.scale * (η + δ) ≤ 2 ^ (logSlots + 8) → checkRe prm logSlots msg out = .ok true := by
  subst hlev
  have hsc : (0 : ℝ) < prm.scale := by exact_mod_cast hs
  obtain ⟨m, hm, hslot⟩ := h.val
  have hsize : ∀ j < C.N / 2, ‖islot m j / sc‖ ≤ M := by
    intro j hj
    have g1 := norm_add_le (islot m j / sc - x j) (x j)
    rw [sub_add_cancel] at g1
    have := hslot j hj
    have := hx j hj
    linarith
  obtain ⟨dec', e4, h5, h6⟩ := ok_of_decrypt (E := E) hC K hd h.wf h.lt h.parties hm
    (fits_of_slots hN hlog hsc' hsize hQ) π
  rw [h.scale] at e4
  refine ⟨dec', _, e4, h5, h6, fun {logSlots msg} hlen hmsg htol => ?_⟩
  unfold checkRe
  rw [hE.len, hlen, if_neg (lt_irrefl _)]
  congr 1
  rw [List.all_eq_true]
  intro j hj
  rw [List.mem_range] at hj
  rw [within_iff hs, hmsg j hj]
  refine (Complex.abs_re_le_norm _).trans ?_
  have g1 := hE.dec m sc hsc' hsize j hj
  have g2 := norm_add_le ((E.decode m sc).getD j 0 - islot m j / sc)
    (islot m j / sc - x j)
  rw [sub_add_sub_cancel] at g2
  have := hslot j hj
  rw [norm_sub_rev, le_div_iff₀ hsc]
  nlinarith

/-- What `testEvaluatorAdd`, `testEvaluatorSub` and `testEvaluatorRescale` have in common. -/
theorem testBinary_pass {logN : ℕ} (hN : C.N = 2 ^ logN) (hlog : 1 ≤ logN) (hC : C.Good)
    (K : Keys kb s e S) (hs : 0 < prm.scale)
    (hE : E.Accurate prm.scale (C.N / 2) M ε δ) (he : EncOk prm enc)
    (hd : dec.pool.isNTT = false) (hok : ev.Ok) (hu1 : "user1" ∈ S) (hu2 : "user2" ∈ S)
    {d1 d2 : Draw C} (hd1 : d1.Unit) (hd2 : d2.Unit)
    (hW1 : ∀ j < C.N / 2, ‖islot (noise s e d1 "user1") j‖ ≤ W)
    (hW2 : ∀ j < C.N / 2, ‖islot (noise s e d2 "user2") j‖ ≤ W)
    {op : Ev C → CCt C → CCt C → Go (Ev C × CCt C)} {f : ℂ → ℂ → ℂ}
    (hf : ∀ x y, ‖x‖ ≤ 2 → ‖y‖ ≤ 2 → ‖f x y‖ ≤ 4)
    {L : ℕ} {sc : ℚ} (hsc' : 0 < sc) {η : ℝ}
    (hop : ∀ ev a b x y, ev.Ok → (∀ j < C.N / 2, ‖x j‖ ≤ 2) → (∀ j < C.N / 2, ‖y j‖ ≤ 2) →
      Sees s S C.lq prm.scale a x (ε + W / prm.scale) → Sees s S C.lq prm.scale b y (ε + W / prm.scale) →
      ∃ ev' r, op ev a b = .ok (ev', r) ∧ Sees s S L sc r (fun j => f (x j) (y j)) η)
    (hM1 : 2 + (ε + W / prm.scale) ≤ M) (hM2 : 2 ≤ M) (hM : 4 + η ≤ M)
    (hQ1 : 2 * (prm.scale * M) < C.qProd (min C.lq dec.pool.level))
    (hQ : 2 * (sc * M) < C.qProd (min L (min C.lq dec.pool.level))) {logSlots : ℕ}
    (htol1 : prm.scale * ((ε + W / prm.scale) + δ) ≤ 2 ^ (logSlots + 8))
    (htol : prm.scale * (η + δ) ≤ 2 ^ (logSlots + 8)) (π : ℕ → Sched) :
    testBinary op f E prm logSlots kb enc dec ev d1 d2 π = .ok true := by
  obtain ⟨enc1, m1, c1, e1, he1, v1⟩ := newTestVectors_spec (E := E) hC K he d1 hu1 ⟨-1, -1⟩ ⟨1, 1⟩
  obtain ⟨enc2, m2, c2, e2, -, v2⟩ := newTestVectors_spec (E := E) hC K he1 d2 hu2 ⟨-1, -1⟩ ⟨1, 1⟩
  obtain ⟨s1, l1, n1⟩ := v1.sees' hC hs hE hd1 hu1 hM2 hW1
  obtain ⟨s2, l2, n2⟩ := v2.sees' hC hs hE hd2 hu2 hM2 hW2
  obtain ⟨ev', c3, e3, s3⟩ := hop ev c1 c2 _ _ hok n1 n2 s1 s2
  obtain ⟨dec1, o1, g1, p1, q1, k1⟩ := s1.check hN hlog hC K hs hE hd hs n1 hM1 hQ1 rfl (π 0)
  obtain ⟨dec2, o2, g2, p2, q2, k2⟩ := s2.check hN hlog hC K hs hE p1 hs n2 hM1 hQ1
    (by rw [q1]; congr 1; omega) (π 1)
  obtain ⟨dec3, o3, g3, p3, q3, k3⟩ := s3.check hN hlog hC K hs hE p2 hsc'
    (fun j hj => hf _ _ (n1 j hj) (n2 j hj)) hM hQ
    (by rw [q2, q1]; congr 1; omega) (π 2)
  unfold testBinary
  simp only [e1, e2, e3, g1, g2, g3, Go.ok_bind]
  rw [k1 l1 (fun _ _ => rfl) htol1, Go.ok_bind, k2 l2 (fun _ _ => rfl) htol1, Go.ok_bind,
    k3 (by simp) (fun j hj => by simp [hj]) htol]
  rfl

/-- The tolerance for the sum covers the summands. -/
theorem tol_mono {k : ℕ} (hs : 0 < prm.scale) {a : ℝ} (ha : 0 ≤ a)
    (h : prm.scale * (2 * a + δ) ≤ 2 ^ k) : prm.scale * (a + δ) ≤ 2 ^ k := by
  have hsc : (0 : ℝ) < prm.scale := by exact_mod_cast hs
  refine le_trans (mul_le_mul_of_nonneg_left ?_ hsc.le) h
  linarith

/-- **C72**, `testEvaluatorAdd` passes. -/
theorem C72_Add_pass {logN : ℕ} (hN : C.N = 2 ^ logN) (hlog : 1 ≤ logN) (hC : C.Good)
    (hfl : prm.fl.Ok) (K : Keys kb s e S) (hs : 0 < prm.scale)
    (hE : E.Accurate prm.scale (C.N / 2) M ε δ) (he : EncOk prm enc)
    (hd : dec.pool.isNTT = false) (hok : ev.Ok) (hu1 : "user1" ∈ S) (hu2 : "user2" ∈ S)
    {d1 d2 : Draw C} (hd1 : d1.Unit) (hd2 : d2.Unit)
    (hW1 : ∀ j < C.N / 2, ‖islot (noise s e d1 "user1") j‖ ≤ W)
    (hW2 : ∀ j < C.N / 2, ‖islot (noise s e d2 "user2") j‖ ≤ W)
    (hW0 : 0 ≤ ε + W / prm.scale) (hM : 4 + 2 * (ε + W / prm.scale) ≤ M)
    (hQ : 2 * (prm.scale * M) < C.qProd (min C.lq dec.pool.level)) {logSlots : ℕ}
    (htol : prm.scale * (2 * (ε + W / prm.scale) + δ) ≤ 2 ^ (logSlots + 8)) (π : ℕ → Sched) :
    testEvaluatorAdd E prm logSlots kb enc dec ev d1 d2 π = .ok true :=
  testBinary_pass hN hlog hC K hs hE he hd hok hu1 hu2 hd1 hd2 hW1 hW2
    (fun x y hx hy => (norm_add_le _ _).trans (by linarith))
    hs (fun ev a b x y ho _ _ ha hb => by
      obtain ⟨ev', r, e1, -, h⟩ := ha.add hC hfl ho hb (π 3)
      exact ⟨ev', r, e1, h.congr (fun _ _ => rfl) (two_mul _).ge⟩) (by linarith) (by linarith) hM hQ
    (by rw [← min_assoc, min_self]; exact hQ) (tol_mono hs hW0 htol) htol π

/-- **C72**, `testEvaluatorSub` passes. -/
theorem C72_Sub_pass {logN : ℕ} (hN : C.N = 2 ^ logN) (hlog : 1 ≤ logN) (hC : C.Good)
    (hfl : prm.fl.Ok) (K : Keys kb s e S) (hs : 0 < prm.scale)
    (hE : E.Accurate prm.scale (C.N / 2) M ε δ) (he : EncOk prm enc)
    (hd : dec.pool.isNTT = false) (hok : ev.Ok) (hu1 : "user1" ∈ S) (hu2 : "user2" ∈ S)
    {d1 d2 : Draw C} (hd1 : d1.Unit) (hd2 : d2.Unit)
    (hW1 : ∀ j < C.N / 2, ‖islot (noise s e d1 "user1") j‖ ≤ W)
    (hW2 : ∀ j < C.N / 2, ‖islot (noise s e d2 "user2") j‖ ≤ W)
    (hW0 : 0 ≤ ε + W / prm.scale) (hM : 4 + 2 * (ε + W / prm.scale) ≤ M)
    (hQ : 2 * (prm.scale * M) < C.qProd (min C.lq dec.pool.level)) {logSlots : ℕ}
    (htol : prm.scale * (2 * (ε + W / prm.scale) + δ) ≤ 2 ^ (logSlots + 8)) (π : ℕ → Sched) :
    testEvaluatorSub E prm logSlots kb enc dec ev d1 d2 π = .ok true :=
  testBinary_pass hN hlog hC K hs hE he hd hok hu1 hu2 hd1 hd2 hW1 hW2
    (fun x y hx hy => (norm_sub_le _ _).trans (by linarith))
    hs (fun ev a b x y ho _ _ ha hb => by
      obtain ⟨ev', r, e1, h⟩ := ha.minus hC hfl ho hb (π 3)
      exact ⟨ev', r, e1, h.congr (fun _ _ => rfl) (two_mul _).ge⟩) (by linarith) (by linarith) hM hQ
    (by rw [← min_assoc, min_self]; exact hQ) (tol_mono hs hW0 htol) htol π

/-- **C72**, the conjugation test is not blind: with the conjugation left out it fails as soon as the
tolerance is below `2 - (noise)`. -/
theorem C72_Conj_sees (R : Ready E prm kb s e S enc dec ev users d M ε δ W)
    (hM3 : 3 ≤ M) (hM : 3 + (users.length + 1 : ℕ) * (ε + W / prm.scale) ≤ M)
    (hQ : 2 * (prm.scale * M) < C.qProd (min C.lq dec.pool.level)) {logSlots : ℕ}
    (htol : 2 ^ (logSlots + 11) <
      prm.scale * (2 - ((users.length + 1 : ℕ) * (ε + W / prm.scale) + δ))) (π : ℕ → Sched)
    (π' : Sched) :
    testSum (fun _ ev ct => .ok (ev, ct)) (fun msg out => checkC prm logSlots 11 out.length fun i =>
      out.getD i 0 - starRingEnd ℂ (msg.getD i 0)) (zRot users.length) E prm kb enc dec ev users d
      π π' = .ok false := by
  obtain ⟨logN, hN, hlog⟩ := R.pow
  have hsc : (0 : ℝ) < prm.scale := by exact_mod_cast R.scale
  have hlen : 0 < users.length := List.length_pos_iff.mpr R.nonempty
  have hn : 0 < C.N / 2 := by
    have : 2 ≤ C.N := by rw [hN]; exact (pow_le_pow_right₀ (by norm_num) hlog : 2 ^ 1 ≤ 2 ^ logN)
    omega
  obtain ⟨out, e1, h1, h2⟩ := testSum_spec R (z := zRot users.length) ((zRot_norm' hlen).trans hM3)
    (op := fun _ ev ct => .ok (ev, ct))
    (cmp := fun msg out => checkC prm logSlots 11 out.length fun i =>
      out.getD i 0 - starRingEnd ℂ (msg.getD i 0)) π π' R.scale
    (L := C.lq) (fun ev ct _ hct => ⟨ev, ct, rfl, hct⟩) (fun _ _ => zRot_norm hlen) hM hQ
  rw [e1]
  congr 1
  rw [Bool.eq_false_iff]
  intro hc
  rw [checkC_iff R.scale] at hc
  have g1 := (hc 0 (by rw [h1]; exact hn)).2
  have g2 := h2 0 hn
  have g3 := (Complex.abs_im_le_norm _).trans g2
  rw [le_div_iff₀ hsc] at g1
  have hz : (((users.length + 1 : ℕ) : ℂ) * zRot users.length).im =
      (users.length + 1 : ℕ) * (1 / (users.length : ℝ)) := by
    rw [Complex.mul_im]; simp [zRot]
  have h1' : (1 : ℝ) ≤ (users.length + 1 : ℕ) * (1 / (users.length : ℝ)) := by
    have : (0 : ℝ) < users.length := by exact_mod_cast hlen
    rw [mul_one_div, le_div_iff₀ this]
    push_cast
    linarith
  rw [Complex.sub_im, hz] at g3
  have g4 : (List.replicate (C.N / 2) (((users.length + 1 : ℕ) : ℂ) * zRot users.length)).getD 0 0 =
      ((users.length + 1 : ℕ) : ℂ) * zRot users.length := by simp [hn]
  rw [g4, Complex.sub_im, Complex.conj_im, hz] at g1
  generalize ((users.length + 1 : ℕ) : ℝ) * (1 / (users.length : ℝ)) = y at *
  generalize ((users.length + 1 : ℕ) : ℝ) * (ε + W / prm.scale) + δ = η at *
  have g5 := abs_le.mp g3
  have g6 : 2 - η ≤ |(out.getD 0 0).im - -y| := by
    rw [sub_neg_eq_add]
    exact le_trans (by linarith) (le_abs_self _)
  nlinarith

end MK.CT
