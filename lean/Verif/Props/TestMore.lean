import Verif.TestMore
import Verif.Props.Test
import Mathlib.Data.Nat.ChineseRemainder

/-!
# C68: the remaining unit tests of mkrlwe
-/

noncomputable section

namespace MK

open Word Finset

variable {C : Ctx}

theorem newCt_wf (b : Bool) (l : ℕ) (o : List String) : (newCt b l o : Ct C).Wf l b := by
  unfold newCt
  cases b
  · simpa using Ct.new_wf (C := C) l o
  · simpa using Ct.newNTT_wf (C := C) l o

theorem newCt_mem (b : Bool) (l : ℕ) (o : List String) (k : String) :
    k ∈ (newCt b l o : Ct C).value.keys ↔ k = "0" ∨ k ∈ o := by
  rw [← GoMap.has_iff, GoMap.has]
  unfold newCt
  cases b <;> simp [Ct.newNTT, GoMap.get?_mapVals, Ct.new_get?] <;> tauto

/-- The ciphertext of the zero plaintext at any level, in either form. -/
theorem encrypt_zero_gen (hC : C.Good) (hbig : Above C 39) {crs : CRS C} {a : SwKey C}
    (ha : crs.get? 0 = some a) (halen : (a 0).Q.len = C.nQ) {s e : Nega C.N ℤ} (hs : Small C s)
    (he : e.Bdd 19) (id : String) (hid : id ≠ "0") (pool : RQ C) (u e0 e1 : Nega C.N ℤ) {l : ℕ}
    (hl : l < C.nQ) (b : Bool) :
    ∃ pk pool' ct, GenPublicKey crs e (GenSecretKey s id) = .ok pk ∧
      Encrypt pool u e0 e1 (zeroPt l b) pk (newCt b l [id]) = .ok (pool', ct) ∧
      ct.Wf l b ∧ (∀ k, k ∈ ct.value.keys ↔ k = "0" ∨ k = id) ∧
      (∀ i ≤ l, ct.comp "0" i + ct.comp id i * Nega.red (C.q i) s =
          Nega.red (C.q i) (u * e + e0 + e1 * s)) ∧
      ∀ i ≤ l, ct.comp "0" i = Nega.red (C.q i) u *
        (C.nttQ.equiv i).symm (pk.value0.Q.row i) + Nega.red (C.q i) e0 := by
  obtain ⟨pk, hpk, hpid, hIs⟩ := C34_public_key hC ha halen (small_of_above hC (B := 19) hbig he)
    (genSecretKey_isSK hC hs id)
  have hpid' : pk.id = id := hpid
  have hlev : (zeroPt l b : RQ C).level = l := rfl
  have hw := newCt_wf (C := C) b l [id]
  have hkk : ∀ k, k ∈ (newCt b l [id] : Ct C).value.keys ↔ k = "0" ∨ k = id := fun k => by
    rw [newCt_mem, List.mem_singleton]
  obtain ⟨pool', r, hr, hwr, hk, hlen, -, hc0, hc1⟩ := encrypt_comps hC hw (pk := pk)
    (by rw [hpid']; exact hid) (by rw [hpid', hkk]; exact Or.inr rfl) pool u e0 e1 (zeroPt l b)
    (l := l) (by rw [hlev, min_self])
  have hk' : ∀ k, k ∈ r.value.keys ↔ k = "0" ∨ k = id := fun k => (hk k).trans (hkk k)
  have hz : ∀ i, (zeroPt l b : RQ C).val C.nttQ i = 0 := fun i => by
    unfold RPoly.val
    show (if b = true then (C.nttQ.equiv i).symm (0 : Row C.N (C.q i)) else ⟨0⟩) = 0
    split
    · exact map_zero _
    · rfl
  refine ⟨pk, pool', r, hpk, hr, ⟨hwr.wf, hwr.zero_mem, fun k p hp => ?_, hwr.ntt⟩, hk',
    fun i hi => ?_, fun i hi => by rw [hc0 i hi, hz, add_zero]⟩
  · rcases (hk' k).mp (GoMap.mem_keys_of_get? hp) with rfl | rfl
    · exact hwr.len0 p hp
    · exact hlen p (by rw [hpid']; exact hp)
  · have v0 := hc0 i hi
    have v1 := hc1 i hi
    rw [hpid'] at v1
    rw [hz, add_zero] at v0
    rw [v0, v1, map_add, map_add, map_mul, map_mul, ← hIs i (by omega)]
    ring

theorem isOrder_of_perm {K V : Type _} [DecidableEq K] {m : GoMap K V} (h : m.WF)
    {o l : List K} (ho : o.Perm l) (hl : l.Nodup) (hk : ∀ k, k ∈ m.keys ↔ k ∈ l) : m.IsOrder o :=
  ho.trans ((List.perm_ext_iff_of_nodup hl h).mpr fun k => (hk k).symm)

/-- What a decryption returns, as a polynomial in coefficient form. -/
theorem decrypt_rows (hC : C.Good) {ct : Ct C} {b : Bool} (hw : ct.Wf C.lq b)
    {skSet : KeySet (SecretKey C)} (hks : KeyedById skSet) {s : String → Nega C.N ℤ}
    (hs : ∀ id ∈ ct.parties, ∃ sk, skSet.value.get? id = some sk ∧ IsSK sk (s id))
    {l lS oC oI oS : List String} (hl : l.Nodup) (hkl : ∀ k, k ∈ ct.value.keys ↔ k ∈ l)
    (hoC : oC.Perm l) (hoI : oI.Perm l) (hlS : lS.Nodup)
    (hkS : ∀ k, k ∈ skSet.value.keys ↔ k ∈ lS) (hwS : skSet.value.WF) (hoS : oS.Perm lS)
    {pt : RQ C} (hpt : pt.len = C.nQ) {w : Nega C.N ℤ}
    (hph : ∀ i ≤ C.lq, ct.phase s i = Nega.red (C.q i) w) :
    ∃ pt', Decrypt ct skSet pt oC oI oS = .ok pt' ∧ pt'.len = C.nQ ∧
      ∀ i ≤ C.lq, ((if b then invPlain pt' else pt' : RQ C)).row i =
        (Nega.red (C.q i) w).coeff := by
  have hnQ := hC.nQ_pos
  have hlq : C.lq + 1 = C.nQ := by show C.nQ - 1 + 1 = _; omega
  have hoC' := isOrder_of_perm hw.wf hoC hl hkl
  obtain ⟨pt', h1, h2, h3, h4⟩ := C09_decrypt_phase hC hw.ragged
    (by show C.nQ - 1 < _; omega) hks hs hoC'
    (fun r hr => by
      obtain ⟨r', hr', hwf, hget⟩ := Ct.CopyNew_spec ct hw.zero_mem hoC'
      rw [hr] at hr'
      injection hr' with hr'
      subst hr'
      refine isOrder_of_perm hwf hoI hl fun k => ?_
      rw [← hkl k, ← GoMap.has_iff, ← GoMap.has_iff, GoMap.has, GoMap.has, hget])
    (isOrder_of_perm hwS hoS hlS hkS) pt
  have hlvl : pt.level = C.lq := by show pt.len - 1 = C.nQ - 1; rw [hpt]
  rw [hlvl, min_self] at h2 h4
  refine ⟨pt', h1, by rw [h2, hlq], fun i hi => ?_⟩
  have h5 := h4 i hi
  rw [hph i hi] at h5
  cases b
  · simp only [RPoly.val, Bool.false_eq_true, if_false] at h5 ⊢
    exact congrArg Nega.coeff h5
  · simp only [RPoly.val, if_true] at h5 ⊢
    have : pt'.level = C.lq := by show pt'.len - 1 = _; rw [h2]; rfl
    unfold invPlain
    rw [this]
    simp only [RPoly.invNttLvl, RPoly.write_row_of_le _ _ hi]
    exact congrArg Nega.coeff h5

/-- The noise of a fresh encryption. -/
def Samples.noise (x : Samples C) : Nega C.N ℤ := x.u * x.e + x.e0 + x.e1 * x.s

/-- The bounds of the samplers. -/
structure Samples.Ok (x : Samples C) : Prop where
  s : x.s.Bdd 1
  e : x.e.Bdd 19
  u : x.u.Bdd 1
  e0 : x.e0.Bdd 19
  e1 : x.e1.Bdd 19

theorem Samples.Ok.bdd {x : Samples C} (h : x.Ok) :
    x.noise.Bdd ((19 * (2 * C.N + 1) : ℕ) : ℤ) := encNoise_bdd h.u h.e h.e0 h.e1 h.s

theorem phase_two {ct : Ct C} {id : String} (hid : id ≠ "0")
    (hk : ∀ k, k ∈ ct.value.keys ↔ k = "0" ∨ k = id) (s : String → Nega C.N ℤ) (i : ℕ) :
    ct.phase s i = ct.comp "0" i + ct.comp id i * Nega.red (C.q i) (s id) := by
  unfold Ct.phase
  have : ct.value.keys.toFinset = {"0", id} := by
    ext k
    simp [hk k]
  rw [this, Finset.sum_pair hid.symm]
  unfold Ct.secretOf
  rw [if_pos rfl, if_neg hid, map_one, mul_one]

/-- `log2OfInnerSum` at the maximal level. -/
theorem norm_max (hC : C.Good) (hF : C.Fits) {B : ℕ} (hbig : Above C (2 * B + 1)) {v : RQ C}
    (hlen : v.len = C.nQ) {w : Nega C.N ℤ}
    (hrow : ∀ i ≤ C.lq, v.row i = (Nega.red (C.q i) w).coeff) (hw : w.Bdd B) :
    log2OfInnerSum C.nQ C.lq v =
      .ok (Nat.size (absSum w % ∏ i ∈ range C.nQ, C.q i)) := by
  have hnQ := hC.nQ_pos
  rw [C65_log2OfInnerSum (goodModQ hC hF hbig) (level := C.lq) (by show C.nQ - 1 < _; omega)
    (e := w) (by rw [hlen]; show C.nQ - 1 < _; omega) hrow (fun i hi j => by
      have h1 := hw j
      have h2 := hbig.q i (hC.lq_lt.mp hi)
      omega)]
  have e1 : C.lq + 1 = C.nQ := by show C.nQ - 1 + 1 = _; omega
  rw [e1]
  rfl

/-- **C68**, `testDecryptor`, one party: in coefficient and in NTT form, and for every visiting
order of the maps, the verdict is that of the noise `u·e + e0 + e1·s`. -/
theorem C68_Decrypt_verdict (hC : C.Good) (hF : C.Fits) {B : ℕ} (hB : 19 ≤ B)
    (hbig : Above C (2 * B + 1)) {crs : CRS C} {a : SwKey C} (ha : crs.get? 0 = some a)
    (halen : (a 0).Q.len = C.nQ) (pool : RQ C) {s e u e0 e1 : Nega C.N ℤ} (hs : Small C s)
    (he : e.Bdd 19) (hw : (u * e + e0 + e1 * s).Bdd B) (b : Bool) (slack logN : ℕ)
    {oC oI oS : List String} (hoC : oC.Perm ["0", "tetsUser1"])
    (hoI : oI.Perm ["0", "tetsUser1"]) (hoS : oS.Perm ["tetsUser1"]) :
    testDecrypt b slack logN crs pool s e u e0 e1 oC oI oS = .ok (decide (Nat.size
      ((∑ j, ((u * e + e0 + e1 * s).coeff j).natAbs) % ∏ i ∈ range C.nQ, C.q i) ≤
        slack + logN)) := by
  have hnQ := hC.nQ_pos
  obtain ⟨pk, pool', ct, h1, h2, h3, h4, h5, h5'⟩ := encrypt_zero_gen hC
    (hbig.mono (by omega)) ha halen hs he "tetsUser1" (by decide) pool u e0 e1
    (l := C.lq) (by show C.nQ - 1 < _; omega) b
  have hsk := genSecretKey_isSK hC hs "tetsUser1"
  have hget : ∀ id, ((KeySet.new : KeySet (SecretKey C)).add SecretKey.id
      (GenSecretKey s "tetsUser1")).value.get? id =
        if id = "tetsUser1" then some (GenSecretKey s "tetsUser1") else none := fun id => by
    show (GoMap.empty.set _ _ : GoMap String (SecretKey C)).get? id = _
    rw [GoMap.get?_set]
    rfl
  obtain ⟨pt', k1, k2, k3⟩ := decrypt_rows hC h3 (keyedById_new.add (GenSecretKey s "tetsUser1"))
    (s := fun _ => s) (fun id hid => by
      rw [Ct.parties, Finset.mem_erase, List.mem_toFinset, h4] at hid
      have : id = "tetsUser1" := hid.2.resolve_left hid.1
      subst this
      exact ⟨_, (hget _).trans (if_pos rfl), hsk⟩)
    (l := ["0", "tetsUser1"]) (lS := ["tetsUser1"]) (by decide) (fun k => by simp [h4 k]) hoC hoI
    (by decide) (fun k => by
      rw [← GoMap.has_iff, GoMap.has, hget]
      simp) (GoMap.empty_wf.set _ _) hoS (pt := zeroPt C.lq b)
    (by show C.nQ - 1 + 1 = _; omega) (w := u * e + e0 + e1 * s)
    (fun i hi => by rw [phase_two (by decide) h4, h5 i hi])
  unfold testDecrypt GenKeyPair
  dsimp only
  rw [h1]
  simp only [Go.ok_bind, Go.pure_eq]
  have hlev : (zeroPt C.lq b : RQ C).level = C.lq := rfl
  rw [hlev, h2]
  simp only [Go.ok_bind]
  rw [k1]
  simp only [Go.ok_bind]
  rw [h3.level]
  simp only [Go.ok_bind]
  rw [norm_max hC hF hbig (w := u * e + e0 + e1 * s) (by
    cases b
    · exact k2
    · exact k2) k3 hw]
  simp only [Go.ok_bind]
  have hlv : pt'.level = C.lq := by show pt'.len - 1 = C.nQ - 1; rw [k2]
  rw [hlv, decide_eq_true rfl, Bool.true_and]
  rfl

/-- **C68**, `testDecryptor`, one party: the tests assert of a decryption what `testEncryptor`
asserts of an encryption, for all samples and all visiting orders. -/
theorem C68_Decrypt_eq_Encrypt (hC : C.Good) (hF : C.Fits)
    (hbig : Above C (38 * (2 * C.N + 1) + 1)) {crs : CRS C} {a : SwKey C}
    (ha : crs.get? 0 = some a) (halen : (a 0).Q.len = C.nQ) (pool pool' : RQ C) {x : Samples C}
    (hx : x.Ok) (b : Bool) (slack logN : ℕ)
    {oC oI oS : List String} (hoC : oC.Perm ["0", "tetsUser1"])
    (hoI : oI.Perm ["0", "tetsUser1"]) (hoS : oS.Perm ["tetsUser1"]) :
    testDecrypt b slack logN crs pool x.s x.e x.u x.e0 x.e1 oC oI oS =
      testEncryptor slack logN crs pool' x.s x.e x.u x.e0 x.e1 := by
  have hbig' : Above C (2 * (19 * (2 * C.N + 1)) + 1) := hbig.mono (by omega)
  have hsm : Small C x.s := small_of_above hC hbig' (hx.s.mono (by push_cast; omega))
  rw [C68_Decrypt_verdict hC hF (B := 19 * (2 * C.N + 1)) (by omega) hbig' ha halen pool hsm hx.e
    hx.bdd b slack logN hoC hoI hoS, testEncryptor_spec hC hF (B := 19 * (2 * C.N + 1)) (by omega)
    hbig' ha halen pool' hsm hx.e hx.bdd slack logN]
  rfl

/-- **C68**, `testDecryptor`, one party: passes for every random choice if
`19·(2N+1) < 2^slack`. -/
theorem C68_Decrypt {logN : ℕ} (hN : C.N = 2 ^ logN) (hC : C.Good) (hF : C.Fits)
    (hbig : Above C (38 * (2 * C.N + 1) + 1)) {crs : CRS C} {a : SwKey C}
    (ha : crs.get? 0 = some a) (halen : (a 0).Q.len = C.nQ) (pool : RQ C) {x : Samples C}
    (hx : x.Ok) (b : Bool) {slack : ℕ} (hslack : 19 * (2 * C.N + 1) < 2 ^ slack)
    {oC oI oS : List String} (hoC : oC.Perm ["0", "tetsUser1"])
    (hoI : oI.Perm ["0", "tetsUser1"]) (hoS : oS.Perm ["tetsUser1"]) :
    testDecrypt b slack logN crs pool x.s x.e x.u x.e0 x.e1 oC oI oS = .ok true := by
  rw [C68_Decrypt_eq_Encrypt hC hF hbig ha halen pool pool hx b slack logN hoC hoI hoS]
  exact C65_Encrypt hN hC hF hbig ha halen pool hx.s hx.u hx.e hx.e0 hx.e1 hslack

/-- **C68**, `testDecryptor`, one party, negative part: for ring degrees from 512 on, some
samples within the samplers' bounds violate the assertion of all three subtests, whatever the
visiting orders. -/
theorem C68_Decrypt_can_fail {logN : ℕ} (hN : C.N = 2 ^ logN) (h9 : 9 ≤ logN) (hC : C.Good)
    (hF : C.Fits) (hbig : Above C (38 * (2 * C.N + 1) + 1))
    (hprod : 19 * (2 * C.N + 1) * C.N < ∏ i ∈ range C.nQ, C.q i) {crs : CRS C} {a : SwKey C}
    (ha : crs.get? 0 = some a) (halen : (a 0).Q.len = C.nQ) (pool : RQ C) :
    ∃ x : Samples C, x.Ok ∧ ∀ (b : Bool) (oC oI oS : List String),
      oC.Perm ["0", "tetsUser1"] → oI.Perm ["0", "tetsUser1"] → oS.Perm ["tetsUser1"] →
      testDecrypt b 9 logN crs pool x.s x.e x.u x.e0 x.e1 oC oI oS = .ok false := by
  obtain ⟨s, e, u, e0, e1, b1, b2, b3, b4, b5, -, h⟩ :=
    C65_Encrypt_can_fail hN h9 hC hF hbig hprod ha halen pool
  refine ⟨⟨s, e, u, e0, e1⟩, ⟨b1, b3, b2, b4, b5⟩, fun b oC oI oS hoC hoI hoS => ?_⟩
  have := C68_Decrypt_eq_Encrypt hC hF hbig ha halen pool pool (x := ⟨s, e, u, e0, e1⟩)
    ⟨b1, b3, b2, b4, b5⟩ b 9 logN hoC hoI hoS
  rw [this]
  exact h

/-! ### Two parties -/

/-- The orders of a decryption under the keys of the test. -/
structure DecOrd.Ok (o : DecOrd) (l : List String) : Prop where
  oC : o.oC.Perm l
  oI : o.oI.Perm l
  oS : o.oS.Perm ["tetsUser1", "user1", "user2"]

theorem checkDecrypt_spec (hC : C.Good) (hF : C.Fits) {B : ℕ} (hbig : Above C (2 * B + 1))
    {ct : Ct C} (hw : ct.Wf C.lq true) {skSet : KeySet (SecretKey C)} (hks : KeyedById skSet)
    {s : String → Nega C.N ℤ}
    (hs : ∀ id ∈ ct.parties, ∃ sk, skSet.value.get? id = some sk ∧ IsSK sk (s id))
    {l : List String} (hl : l.Nodup) (hkl : ∀ k, k ∈ ct.value.keys ↔ k ∈ l) {o : DecOrd}
    (ho : o.Ok l) (hkS : ∀ k, k ∈ skSet.value.keys ↔ k ∈ ["tetsUser1", "user1", "user2"])
    (hwS : skSet.value.WF) {pt : RQ C} (hpt : pt.len = C.nQ) {w : Nega C.N ℤ} (hwB : w.Bdd B)
    (hph : ∀ i ≤ C.lq, ct.phase s i = Nega.red (C.q i) w) (bound : ℕ) :
    ∃ pt' : RQ C, pt'.len = C.nQ ∧ checkDecrypt bound ct skSet pt o.oC o.oI o.oS =
      .ok (pt', decide (Nat.size (absSum w % ∏ i ∈ range C.nQ, C.q i) ≤ bound)) := by
  obtain ⟨pt', k1, k2, k3⟩ := decrypt_rows hC hw hks hs hl hkl ho.oC ho.oI
    (lS := ["tetsUser1", "user1", "user2"]) (by decide) hkS hwS ho.oS hpt hph
  refine ⟨invPlain pt', k2, ?_⟩
  unfold checkDecrypt
  rw [k1]
  simp only [Go.ok_bind]
  rw [hw.level]
  simp only [Go.ok_bind]
  rw [norm_max hC hF hbig (v := invPlain pt') k2 k3 hwB]
  rfl

theorem comp_of_get? {ct : Ct C} {id : String} {p : RQ C} (h : ct.value.get? id = some p) (i : ℕ) :
    ct.comp id i = p.val C.nttQ i := by
  unfold Ct.comp
  rw [h]

/-- **C68**, `Decrypt/Multikey`: the three verdicts are those of the noise of the first
encryption, of the second, and of their sum, for all samples and visiting orders. -/
theorem C68_Multikey_verdict (hC : C.Good) (hF : C.Fits)
    (hbig : Above C (76 * (2 * C.N + 1) + 1)) {crs : CRS C} {a : SwKey C}
    (ha : crs.get? 0 = some a) (halen : (a 0).Q.len = C.nQ) (pool : RQ C) {s0 : Nega C.N ℤ}
    {x y : Samples C} (hx : x.Ok) (hy : y.Ok) (slack slack' logN : ℕ)
    {ids : List String} (hids : ids.Perm ["user1", "user2"]) {o1 o2 o3 : DecOrd}
    (ho1 : o1.Ok ["0", "user1"]) (ho2 : o2.Ok ["0", "user2"])
    (ho3 : o3.Ok ["0", "user1", "user2"]) :
    testDecryptMultikey slack slack' logN crs pool s0 x y ids o1 o2 o3 = .ok
      (decide (Nat.size ((∑ j, (x.noise.coeff j).natAbs) % ∏ i ∈ range C.nQ, C.q i) ≤ slack + logN),
       decide (Nat.size ((∑ j, (y.noise.coeff j).natAbs) % ∏ i ∈ range C.nQ, C.q i) ≤ slack + logN),
       decide (Nat.size ((∑ j, ((x.noise + y.noise).coeff j).natAbs) %
         ∏ i ∈ range C.nQ, C.q i) ≤ slack' + logN)) := by
  have hnQ := hC.nQ_pos
  have hbig' : Above C (2 * (19 * (2 * C.N + 1)) + 1) := hbig.mono (by omega)
  have hbig2 : Above C (2 * (38 * (2 * C.N + 1)) + 1) := hbig.mono (by omega)
  have hsx : Small C x.s := small_of_above hC hbig' (hx.s.mono (by push_cast; omega))
  have hsy : Small C y.s := small_of_above hC hbig' (hy.s.mono (by push_cast; omega))
  obtain ⟨pk1, pool1, ct1, a1, a2, a3, a4, a5, -⟩ := encrypt_zero_gen hC
    (hbig'.mono (by omega)) ha halen hsx hx.e "user1" (by decide) pool x.u x.e0 x.e1
    (l := C.lq) (by show C.nQ - 1 < _; omega) true
  obtain ⟨pk2, pool2, ct2, b1, b2, b3, b4, b5, -⟩ := encrypt_zero_gen hC
    (hbig'.mono (by omega)) ha halen hsy hy.e "user2" (by decide) pool1 y.u y.e0 y.e1
    (l := C.lq) (by show C.nQ - 1 < _; omega) true
  set skSet := ((((KeySet.new : KeySet (SecretKey C)).add SecretKey.id
    (GenSecretKey s0 "tetsUser1")).add SecretKey.id (GenSecretKey x.s "user1")).add SecretKey.id
      (GenSecretKey y.s "user2")) with hskS
  have hks : KeyedById skSet := ((keyedById_new.add _).add _).add _
  have hget : ∀ id, skSet.value.get? id = if id = "user2" then some (GenSecretKey y.s "user2")
      else if id = "user1" then some (GenSecretKey x.s "user1") else if id = "tetsUser1" then
        some (GenSecretKey s0 "tetsUser1") else none := fun id => by
    show (((GoMap.empty.set _ _ : GoMap String (SecretKey C)).set _ _).set _ _).get? id = _
    rw [GoMap.get?_set, GoMap.get?_set, GoMap.get?_set]
    rfl
  have hkS : ∀ k, k ∈ skSet.value.keys ↔ k ∈ ["tetsUser1", "user1", "user2"] := fun k => by
    rw [← GoMap.has_iff, GoMap.has, hget]
    by_cases h1 : k = "user2"
    · simp [h1]
    · by_cases h2 : k = "user1"
      · simp [h2]
      · by_cases h3 : k = "tetsUser1" <;> simp [h1, h2, h3]
  have hwS : skSet.value.WF := ((GoMap.empty_wf.set _ _).set _ _).set _ _
  set sec : String → Nega C.N ℤ := fun id => if id = "user2" then y.s else x.s with hsec
  have hs1 : IsSK (GenSecretKey x.s "user1") (sec "user1") := genSecretKey_isSK hC hsx "user1"
  have hs2 : IsSK (GenSecretKey y.s "user2") (sec "user2") := genSecretKey_isSK hC hsy "user2"
  obtain ⟨p10, g10⟩ := GoMap.exists_get?_of_mem a3.zero_mem
  obtain ⟨p20, g20⟩ := GoMap.exists_get?_of_mem b3.zero_mem
  obtain ⟨p1, g1⟩ := GoMap.exists_get?_of_mem ((a4 "user1").mpr (Or.inr rfl))
  obtain ⟨p2, g2⟩ := GoMap.exists_get?_of_mem ((b4 "user2").mpr (Or.inr rfl))
  have hwO := newCt_wf (C := C) true C.lq ids
  have hO : (newCt true C.lq ids : Ct C) = Ct.newNTT C.lq ids := rfl
  rw [hO] at hwO
  have hmO : ∀ k, k ∈ (Ct.newNTT C.lq ids : Ct C).value.keys ↔ k ∈ ["0", "user1", "user2"] :=
    fun k => by
      have := newCt_mem (C := C) true C.lq ids k
      rw [hO, hids.mem_iff] at this
      rw [this]; simp
  obtain ⟨z0, gz0⟩ := GoMap.exists_get?_of_mem ((hmO "0").mpr (by simp))
  obtain ⟨z1, gz1⟩ := GoMap.exists_get?_of_mem ((hmO "user1").mpr (by simp))
  obtain ⟨z2, gz2⟩ := GoMap.exists_get?_of_mem ((hmO "user2").mpr (by simp))
  set m : GoMap String (RQ C) := (((Ct.newNTT C.lq ids : Ct C).value.set "0"
    (RPoly.addLvl C.lq p10 p20 z0)).set "user1" (p1.copy z1)).set "user2" (p2.copy z2) with hm
  have hmget : ∀ id, m.get? id = if id = "user2" then some (p2.copy z2) else
      if id = "user1" then some (p1.copy z1) else if id = "0" then
        some (RPoly.addLvl C.lq p10 p20 z0) else (Ct.newNTT C.lq ids : Ct C).value.get? id :=
    fun id => by rw [hm, GoMap.get?_set, GoMap.get?_set, GoMap.get?_set]
  have hmk : ∀ k, k ∈ m.keys ↔ k ∈ ["0", "user1", "user2"] := fun k => by
    rw [hm, GoMap.mem_keys_set, GoMap.mem_keys_set, GoMap.mem_keys_set, hmO]
    simp; tauto
  have hm3 : (⟨m⟩ : Ct C).Wf C.lq true := by
    refine ⟨((hwO.wf.set _ _).set _ _).set _ _, (hmk "0").mpr (by simp), fun id p hp => ?_,
      fun id p hp => ?_⟩
    · change m.get? id = some p at hp
      rw [hmget] at hp
      split at hp
      · injection hp with hp; subst hp; exact (hwO.len _ _ gz2 :)
      · split at hp
        · injection hp with hp; subst hp; exact (hwO.len _ _ gz1 :)
        · split at hp
          · injection hp with hp; subst hp; exact (hwO.len _ _ gz0 :)
          · exact hwO.len _ _ hp
    · change m.get? id = some p at hp
      rw [hmget] at hp
      split at hp
      · injection hp with hp; subst hp; exact (b3.ntt _ _ g2 :)
      · split at hp
        · injection hp with hp; subst hp; exact (a3.ntt _ _ g1 :)
        · split at hp
          · injection hp with hp; subst hp; exact (hwO.ntt _ _ gz0 :)
          · exact hwO.ntt _ _ hp
  have hlen : ∀ {i : ℕ}, i ≤ C.lq → i < C.lq + 1 := fun h => by omega
  have hph3 : ∀ i ≤ C.lq, (⟨m⟩ : Ct C).phase sec i = Nega.red (C.q i) (x.noise + y.noise) := by
    intro i hi
    have e0 : (⟨m⟩ : Ct C).comp "0" i = ct1.comp "0" i + ct2.comp "0" i := by
      rw [comp_of_get? (ct := ⟨m⟩) (p := RPoly.addLvl C.lq p10 p20 z0) (by rw [hmget]; rfl),
        comp_of_get? g10, comp_of_get? g20, RPoly.val_addLvl C.nttQ hi
          ((a3.ntt _ _ g10).trans (hwO.ntt _ _ gz0).symm)
          ((b3.ntt _ _ g20).trans (hwO.ntt _ _ gz0).symm)]
    have e1 : (⟨m⟩ : Ct C).comp "user1" i = ct1.comp "user1" i := by
      rw [comp_of_get? (ct := ⟨m⟩) (p := p1.copy z1) (by rw [hmget]; rfl), comp_of_get? g1]
      refine RPoly.val_congr C.nttQ (p := p1.copy z1) (p' := p1) rfl ?_
      show (if i < min z1.len p1.len then p1.row i else z1.row i) = p1.row i
      rw [if_pos (by rw [hwO.len _ _ gz1, a3.len _ _ g1, min_self]; exact hlen hi)]
    have e2 : (⟨m⟩ : Ct C).comp "user2" i = ct2.comp "user2" i := by
      rw [comp_of_get? (ct := ⟨m⟩) (p := p2.copy z2) (by rw [hmget]; rfl), comp_of_get? g2]
      refine RPoly.val_congr C.nttQ (p := p2.copy z2) (p' := p2) rfl ?_
      show (if i < min z2.len p2.len then p2.row i else z2.row i) = p2.row i
      rw [if_pos (by rw [hwO.len _ _ gz2, b3.len _ _ g2, min_self]; exact hlen hi)]
    unfold Ct.phase
    have hfs : (⟨m⟩ : Ct C).value.keys.toFinset = {"0", "user1", "user2"} := by
      ext k
      rw [List.mem_toFinset, hmk k]
      simp
    rw [hfs, Finset.sum_insert (by decide), Finset.sum_pair (by decide), e0, e1, e2]
    have s0' : Ct.secretOf sec "0" = 1 := rfl
    have s1' : Ct.secretOf sec "user1" = x.s := rfl
    have s2' : Ct.secretOf sec "user2" = y.s := rfl
    have h1 := a5 i hi
    have h2 := b5 i hi
    change _ = Nega.red (C.q i) x.noise at h1
    change _ = Nega.red (C.q i) y.noise at h2
    rw [s0', s1', s2', map_one, mul_one, map_add, ← h1, ← h2]
    ring
  have hbz : (x.noise + y.noise).Bdd ((38 * (2 * C.N + 1) : ℕ) : ℤ) :=
    (hx.bdd.add hy.bdd).mono (by push_cast; linarith)
  have hnd2 : ∀ id, id ≠ "0" → ["0", id].Nodup := fun id h => by simp [h.symm]
  obtain ⟨pt1, l1, c1⟩ := checkDecrypt_spec hC hF hbig' a3 hks (s := sec) (fun id hid => by
      rw [Ct.parties, Finset.mem_erase, List.mem_toFinset, a4] at hid
      have : id = "user1" := hid.2.resolve_left hid.1
      subst this
      exact ⟨_, (hget _).trans rfl, hs1⟩) (hnd2 _ (by decide)) (fun k => by simp [a4 k]) ho1 hkS hwS
    (pt := zeroPt C.lq true) (by show C.nQ - 1 + 1 = _; omega) hx.bdd
    (fun i hi => by rw [phase_two (by decide) a4]; exact a5 i hi) (slack + logN)
  obtain ⟨pt2, l2, c2⟩ := checkDecrypt_spec hC hF hbig' b3 hks (s := sec) (fun id hid => by
      rw [Ct.parties, Finset.mem_erase, List.mem_toFinset, b4] at hid
      have : id = "user2" := hid.2.resolve_left hid.1
      subst this
      exact ⟨_, (hget _).trans rfl, hs2⟩) (hnd2 _ (by decide)) (fun k => by simp [b4 k]) ho2 hkS hwS
    l1 hy.bdd (fun i hi => by rw [phase_two (by decide) b4]; exact b5 i hi) (slack + logN)
  obtain ⟨pt3, l3, c3⟩ := checkDecrypt_spec hC hF hbig2 hm3 hks (s := sec) (fun id hid => by
      rw [Ct.parties, Finset.mem_erase, List.mem_toFinset, hmk] at hid
      have : id = "user1" ∨ id = "user2" := by
        have := hid.2
        simp only [List.mem_cons, List.not_mem_nil, or_false] at this
        exact this.resolve_left hid.1
      rcases this with rfl | rfl
      · exact ⟨_, (hget _).trans rfl, hs1⟩
      · exact ⟨_, (hget _).trans rfl, hs2⟩) (by decide) hmk ho3 hkS hwS
    l2 hbz hph3 (slack' + logN)
  unfold testDecryptMultikey GenKeyPair
  dsimp only
  have hlev : (zeroPt C.lq true : RQ C).level = C.lq := rfl
  rw [a1, b1, hlev]
  simp only [Go.ok_bind, Go.pure_eq]
  change Encrypt pool x.u x.e0 x.e1 (zeroPt C.lq true) pk1 (Ct.newNTT C.lq ["user1"]) = _ at a2
  change Encrypt pool1 y.u y.e0 y.e1 (zeroPt C.lq true) pk2 (Ct.newNTT C.lq ["user2"]) = _ at b2
  rw [a2]
  simp only [Go.ok_bind]
  rw [b2]
  simp only [Go.ok_bind]
  rw [GoMap.deref_of_get? g10, GoMap.deref_of_get? g20, GoMap.deref_of_get? gz0,
    GoMap.deref_of_get? g1, GoMap.deref_of_get? g2]
  simp only [Go.ok_bind]
  rw [GoMap.deref_of_get? (v := z1) (by rw [GoMap.get?_set_of_ne _ _ (by decide)]; exact gz1)]
  simp only [Go.ok_bind]
  rw [GoMap.deref_of_get? (v := z2) (by
    rw [GoMap.get?_set_of_ne _ _ (by decide), GoMap.get?_set_of_ne _ _ (by decide)]; exact gz2)]
  simp only [Go.ok_bind]
  rw [c1]
  simp only [Go.ok_bind]
  rw [c2]
  simp only [Go.ok_bind]
  rw [c3]
  rfl

/-- **C68**, `Decrypt/Multikey`: passes for every random choice if `19·(2N+1) < 2^slack` and
`38·(2N+1) < 2^slack'`. -/
theorem C68_Multikey {logN : ℕ} (hN : C.N = 2 ^ logN) (hC : C.Good) (hF : C.Fits)
    (hbig : Above C (76 * (2 * C.N + 1) + 1)) {crs : CRS C} {a : SwKey C}
    (ha : crs.get? 0 = some a) (halen : (a 0).Q.len = C.nQ) (pool : RQ C) {s0 : Nega C.N ℤ}
    {x y : Samples C} (hx : x.Ok) (hy : y.Ok) {slack slack' : ℕ}
    (h1 : 19 * (2 * C.N + 1) < 2 ^ slack) (h2 : 38 * (2 * C.N + 1) < 2 ^ slack')
    {ids : List String} (hids : ids.Perm ["user1", "user2"]) {o1 o2 o3 : DecOrd}
    (ho1 : o1.Ok ["0", "user1"]) (ho2 : o2.Ok ["0", "user2"])
    (ho3 : o3.Ok ["0", "user1", "user2"]) :
    testDecryptMultikey slack slack' logN crs pool s0 x y ids o1 o2 o3 =
      .ok (true, true, true) := by
  have hbz : (x.noise + y.noise).Bdd ((38 * (2 * C.N + 1) : ℕ) : ℤ) :=
    (hx.bdd.add hy.bdd).mono (by push_cast; linarith)
  rw [C68_Multikey_verdict hC hF hbig ha halen pool hx hy slack slack' logN hids ho1 ho2 ho3]
  have e1 := (Nat.size_le_size (Nat.mod_le _ (∏ i ∈ range C.nQ, C.q i))).trans
    (size_le_of_bdd hN h1 hx.bdd)
  have e2 := (Nat.size_le_size (Nat.mod_le _ (∏ i ∈ range C.nQ, C.q i))).trans
    (size_le_of_bdd hN h1 hy.bdd)
  have e3 := (Nat.size_le_size (Nat.mod_le _ (∏ i ∈ range C.nQ, C.q i))).trans
    (size_le_of_bdd hN h2 hbz)
  unfold absSum at e1 e2 e3
  rw [decide_eq_true e1, decide_eq_true e2, decide_eq_true e3]

/-- **C68**, `Decrypt/Multikey`, negative part: for ring degrees from 512 on, some samples within
the samplers' bounds violate all three assertions of the test, whatever the visiting orders. -/
theorem C68_Multikey_can_fail {logN : ℕ} (hN : C.N = 2 ^ logN) (h9 : 9 ≤ logN) (hC : C.Good)
    (hF : C.Fits) (hbig : Above C (76 * (2 * C.N + 1) + 1))
    (hprod : 38 * (2 * C.N + 1) * C.N < ∏ i ∈ range C.nQ, C.q i) {crs : CRS C} {a : SwKey C}
    (ha : crs.get? 0 = some a) (halen : (a 0).Q.len = C.nQ) (pool : RQ C) (s0 : Nega C.N ℤ) :
    ∃ x y : Samples C, x.Ok ∧ y.Ok ∧ ∀ (ids : List String) (o1 o2 o3 : DecOrd),
      ids.Perm ["user1", "user2"] → o1.Ok ["0", "user1"] → o2.Ok ["0", "user2"] →
      o3.Ok ["0", "user1", "user2"] →
      testDecryptMultikey 9 10 logN crs pool s0 x y ids o1 o2 o3 = .ok (false, false, false) := by
  have hbig1 : Above C (38 * (2 * C.N + 1) + 1) := hbig.mono (by omega)
  have hbig' : Above C (2 * (19 * (2 * C.N + 1)) + 1) := hbig.mono (by omega)
  have hprod1 : 19 * (2 * C.N + 1) * C.N < ∏ i ∈ range C.nQ, C.q i :=
    lt_of_le_of_lt (Nat.mul_le_mul_right _ (by omega)) hprod
  obtain ⟨s, e, u, e0, e1, b1, b2, b3, b4, b5, -, h⟩ :=
    C65_Encrypt_can_fail hN h9 hC hF hbig1 hprod1 ha halen pool
  have hx : (⟨s, e, u, e0, e1⟩ : Samples C).Ok := ⟨b1, b3, b2, b4, b5⟩
  set x : Samples C := ⟨s, e, u, e0, e1⟩ with hxd
  rw [testEncryptor_spec hC hF (B := 19 * (2 * C.N + 1)) (by omega) hbig' ha halen pool
    (small_of_above hC hbig' (b1.mono (by push_cast; omega))) b3 hx.bdd] at h
  change Except.ok (decide (Nat.size (absSum x.noise % _) ≤ _)) = _ at h
  rw [absSum_lt_prod hx.bdd hprod1] at h
  have h' : ¬ Nat.size (absSum x.noise) ≤ 9 + logN := by
    intro hh
    have e1 := decide_eq_true hh
    injection h with h
    exact Bool.false_ne_true (h.symm.trans e1)
  rw [Nat.size_le, not_lt] at h'
  have hbz : (x.noise + x.noise).Bdd ((38 * (2 * C.N + 1) : ℕ) : ℤ) :=
    (hx.bdd.add hx.bdd).mono (by push_cast; linarith)
  have hdbl : absSum (x.noise + x.noise) = 2 * absSum x.noise := by
    unfold absSum
    rw [Finset.mul_sum]
    refine Finset.sum_congr rfl fun j _ => ?_
    rw [Nega.coeff_add]
    omega
  refine ⟨x, x, hx, hx, fun ids o1 o2 o3 hids ho1 ho2 ho3 => ?_⟩
  rw [C68_Multikey_verdict hC hF hbig ha halen pool hx hx 9 10 logN hids ho1 ho2 ho3]
  have f1 : ¬ Nat.size ((∑ j, (x.noise.coeff j).natAbs) % ∏ i ∈ range C.nQ, C.q i) ≤ 9 + logN := by
    have := absSum_lt_prod hx.bdd hprod1
    unfold absSum at this
    rw [this, Nat.size_le, not_lt]
    exact h'
  have f2 : ¬ Nat.size ((∑ j, ((x.noise + x.noise).coeff j).natAbs) %
      ∏ i ∈ range C.nQ, C.q i) ≤ 10 + logN := by
    have := absSum_lt_prod hbz hprod
    rw [hdbl] at this
    unfold absSum at this hdbl
    rw [hdbl, this, Nat.size_le, not_lt]
    have : 2 ^ (10 + logN) = 2 * 2 ^ (9 + logN) := by rw [← pow_succ']; congr 1; omega
    rw [this]
    exact Nat.mul_le_mul_left 2 h'
  rw [decide_eq_false f1, decide_eq_false f2]

/-! ## Decomposition -/

theorem mred_comm {q : ℕ} (x y : ZMod q) : RPoly.mred x y = RPoly.mred y x := by
  unfold RPoly.mred
  rw [mul_comm x y]

/-- The accumulation of `testDecompose` when the digits beyond `Beta(level)` are zero. -/
theorem decompose_acc (hC : C.Good) {L n : ℕ} (hn : C.beta L ≤ n) {cd sg : SwKey C}
    {h : ℕ → Nega C.N ℤ} (H : Holds L cd h)
    (hz : ∀ k, C.beta L ≤ k → (∀ i, (cd k).Q.row i = 0) ∧ ∀ j, (cd k).P.row j = 0) :
    AccIs L (C.beta L) (forLt n (fun i tmp => QP.mulMontAddLvl L C.lp (cd i) (sg i) tmp)
      (⟨RPoly.new (L + 1), RPoly.new (C.lp + 1)⟩ : QP C)) sg.kv h := by
  have stepQ : ∀ (x : QP C) (k i : ℕ), i ≤ L →
      (C.nttQ.equiv i).symm ((QP.mulMontAddLvl L C.lp (cd k) (sg k) x).Q.row i) =
        (C.nttQ.equiv i).symm (x.Q.row i) +
          sg.kv.Q k i * (C.nttQ.equiv i).symm ((cd k).Q.row i) := by
    intro x k i hi
    simp only [QP.mulMontAddLvl, RPoly.mulMontAddLvl, RPoly.write_row_of_le _ _ hi]
    have : (fun j => x.Q.row i j + RPoly.mred ((cd k).Q.row i j) ((sg k).Q.row i j)) =
        x.Q.row i + fun j => RPoly.mred ((sg k).Q.row i j)
          (C.nttQ.equiv i ((C.nttQ.equiv i).symm ((cd k).Q.row i)) j) := by
      funext j
      rw [RingEquiv.apply_symm_apply]
      show _ = x.Q.row i j + RPoly.mred _ _
      rw [mred_comm]
    rw [this, map_add, symm_mred]
    rfl
  have stepP : ∀ (x : QP C) (k i : ℕ), i ≤ C.lp →
      (C.nttP.equiv i).symm ((QP.mulMontAddLvl L C.lp (cd k) (sg k) x).P.row i) =
        (C.nttP.equiv i).symm (x.P.row i) +
          sg.kv.P k i * (C.nttP.equiv i).symm ((cd k).P.row i) := by
    intro x k i hi
    simp only [QP.mulMontAddLvl, RPoly.mulMontAddLvl, RPoly.write_row_of_le _ _ hi]
    have : (fun j => x.P.row i j + RPoly.mred ((cd k).P.row i j) ((sg k).P.row i j)) =
        x.P.row i + fun j => RPoly.mred ((sg k).P.row i j)
          (C.nttP.equiv i ((C.nttP.equiv i).symm ((cd k).P.row i)) j) := by
      funext j
      rw [RingEquiv.apply_symm_apply]
      show _ = x.P.row i j + RPoly.mred _ _
      rw [mred_comm]
    rw [this, map_add, symm_mred]
    rfl
  have main : ∀ n, AccIs L (min n (C.beta L)) (forLt n (fun i tmp =>
      QP.mulMontAddLvl L C.lp (cd i) (sg i) tmp)
      (⟨RPoly.new (L + 1), RPoly.new (C.lp + 1)⟩ : QP C)) sg.kv h := by
    intro n
    induction n with
    | zero =>
      rw [Nat.zero_min]
      exact ⟨fun i _ => (map_zero _), fun j _ => (map_zero _)⟩
    | succ n ih =>
      by_cases hlt : n < C.beta L
      · rw [min_eq_left (by omega)] at ih
        rw [min_eq_left (by omega)]
        refine ⟨fun i hi => (stepQ _ n i hi).trans ?_,
          fun j hj => (stepP _ n j (hC.lp_lt.mpr hj)).trans ?_⟩
        · rw [ih.q i hi, sum_range_succ, H.q n hlt i hi, RingEquiv.symm_apply_apply]
        · rw [ih.p j hj, sum_range_succ, H.p n hlt j hj, RingEquiv.symm_apply_apply]
      · rw [min_eq_right (by omega)] at ih
        rw [min_eq_right (by omega)]
        obtain ⟨z1, z2⟩ := hz n (by omega)
        refine ⟨fun i hi => (stepQ _ n i hi).trans ?_,
          fun j hj => (stepP _ n j (hC.lp_lt.mpr hj)).trans ?_⟩
        · rw [z1, map_zero, mul_zero, add_zero]
          exact ih.q i hi
        · rw [z2, map_zero, mul_zero, add_zero]
          exact ih.p j hj
  have := main n
  rwa [min_eq_right hn] at this

theorem decompose_beyond (ks : KS C) (L : ℕ) (a : RQ C) (ad : SwKey C) {k : ℕ}
    (hk : C.beta L ≤ k) : (ks.Decompose L a ad).2 k = ad k := by
  unfold KS.Decompose
  dsimp only
  have : ∀ n ≤ C.beta L, forLt n (fun i (ad : SwKey C) => Function.update ad i
      (decomposeSingleNTT L C.lp i (ks.toCoeff L a).2 (ad i))) ad k = ad k := by
    intro n
    induction n with
    | zero => intro _; rfl
    | succ n ih =>
      intro hn
      show Function.update _ n _ k = _
      rw [Function.update_of_ne (by omega)]
      exact ih (by omega)
  exact this _ le_rfl

/-- **C68**, `testDecompose`: at every level of the chain, for every number of digits between
`Beta(level)` and `Beta(MaxLevel)`, the assertion holds for every key, every randomness of the
encryption and all errors of the switching key within the sampler's bound. -/
theorem C68_Decompose {logN : ℕ} (hN : C.N = 2 ^ logN) (hC : C.Good) (hF : C.Fits)
    (hbig : Above C 2047) {crs : CRS C} {a : SwKey C} (ha : crs.get? 0 = some a)
    (halen : (a 0).Q.len = C.nQ) (pool poolQ : RQ C) {s e : Nega C.N ℤ} (u e0 e1 : Nega C.N ℤ)
    (hs : Small C s) (he : e.Bdd 19) {esg : ℕ → Nega C.N ℤ} (hesg : ∀ k, (esg k).Bdd 19)
    {L : ℕ} (hL : L < C.nQ) {n : ℕ} (hn : C.beta L ≤ n) {D : ℕ}
    (hD : ∀ k < C.beta L, 2 * blockSetProd C L k ≤ D)
    (hnoise : C.beta L * (C.N * (D * 19)) ≤ 1021 * C.P) :
    testDecompose L n 10 logN crs pool poolQ s e u e0 e1 esg = .ok true := by
  have hbig' : Above C 39 := hbig.mono (by norm_num)
  obtain ⟨pk, pool', ct, h1, h2, h3, h4, h5, h5'⟩ := encrypt_zero_gen hC hbig' ha halen
    hs he "tetsUser1" (by decide) pool u e0 e1 hL true
  obtain ⟨c0, hc0⟩ := GoMap.exists_get?_of_mem h3.zero_mem
  have hntt := h3.ntt _ _ hc0
  have hsk := genSecretKey_isSK hC hs "tetsUser1"
  obtain ⟨gq, gp⟩ := genSwitchingKey_spec hC poolQ
    (fun k => small_of_above hC (B := 19) hbig' (hesg k)) (fun i hi => hsk.decQ hC hi) SwKey.new
  set sg := (GenSwitchingKey poolQ esg (GenSecretKey s "tetsUser1") SwKey.new).2 with hsg
  have hsw : SwEq sg sg 0 s esg :=
    ⟨fun k hk i hi => by rw [gq k hk i hi, map_zero, mul_zero, sub_zero],
     fun k hk i hi => by rw [gp k hk i hi, map_zero, mul_zero, sub_zero]⟩
  obtain ⟨W, hW, hE⟩ := ext_pair_bdd hC hF hsw hL (digit_isDigits hC hL (c0.val C.nttQ)) (D := D)
    (T := 0) (B := 19)
    (fun k hk' => digit_Bdd hC hF (fun k hk => by
      rw [blockProd_eq hC.alpha_pos' hk]; exact_mod_cast hD k hk) hk' _)
    (fun _ => by simp) (fun k _ => hesg k)
  have hP := hC.P_pos
  have hWb : W.Bdd ((1023 : ℕ) : ℤ) := by
    intro x
    have h1 := hW x
    rw [Nega.coeff_natCast_mul, abs_mul] at h1
    unfold extNoise at h1
    have h2 : ((C.beta L * (C.N * (D * 19)) : ℕ) : ℤ) ≤ ((1021 * C.P : ℕ) : ℤ) := by
      exact_mod_cast hnoise
    push_cast at h2
    have hP' : (0 : ℤ) < C.P := by exact_mod_cast hP
    rw [abs_of_pos hP'] at h1
    have h3 : (C.P : ℤ) * |W.coeff x| ≤ C.P * 1023 := by linarith
    have := le_of_mul_le_mul_left h3 hP'
    exact_mod_cast this
  obtain ⟨inv, -, hH⟩ := decompose_spec hC (KS.new : KS C) L c0 SwKey.new
  have hacc := decompose_acc hC hn (sg := sg) hH (fun k hk => by
    rw [decompose_beyond _ _ _ _ hk]
    exact ⟨fun _ => rfl, fun _ => rfl⟩)
  unfold testDecompose
  dsimp only
  rw [h1]
  simp only [Go.ok_bind]
  have hlev : (zeroPt L true : RQ C).level = L := rfl
  rw [hlev, h2]
  simp only [Go.ok_bind]
  rw [h3.level]
  simp only [Go.ok_bind]
  rw [GoMap.deref_of_get? hc0]
  simp only [Go.ok_bind]
  set tmp : QP C := forLt n (fun i tmp => QP.mulMontAddLvl L C.lp
    (((KS.new : KS C).Decompose L c0 SwKey.new).2 i) (sg i) tmp)
    (⟨RPoly.new (L + 1), RPoly.new (C.lp + 1)⟩ : QP C) with htmp
  have hlen : tmp.Q.len = L + 1 := by
    rw [htmp]
    refine forLt_inv (fun x : QP C => x.Q.len = L + 1) _ _ _ rfl fun i y hy => hy
  have hlv : ∀ v : RQ C, (RPoly.invNttLvl C.nttQ L (RPoly.mulMontSubLvl L c0 v
      (modDownQPtoQNTT L tmp tmp.Q)) (RPoly.mulMontSubLvl L c0 v
      (modDownQPtoQNTT L tmp tmp.Q))).len = L + 1 := fun v => hlen
  have hlv' : ∀ v : RQ C, (RPoly.invNttLvl C.nttQ L (RPoly.mulMontSubLvl L c0 v
      (modDownQPtoQNTT L tmp tmp.Q)) (RPoly.mulMontSubLvl L c0 v
      (modDownQPtoQNTT L tmp tmp.Q))).level = L := fun v => by
    unfold RPoly.level
    rw [hlv]; rfl
  rw [hlv', C65_log2OfInnerSum (goodModQ hC hF (K := 2046) hbig) (level := L) hL (e := W)
    (by rw [hlv]; omega)
    (fun i hi => by
      simp only [RPoly.invNttLvl, RPoly.mulMontSubLvl, modDownQPtoQNTT,
        RPoly.write_row_of_le _ _ hi]
      have hE' := hE i hi
      rw [map_zero, zero_mul, add_zero, RPoly.val, if_pos hntt] at hE'
      have e1 : ∀ (x : Nega C.N (ZMod (C.q i))) (y : Row C.N (C.q i)),
          (fun j => C.nttQ.equiv i x j - y j) = C.nttQ.equiv i x - y := fun _ _ => rfl
      rw [e1, map_sub, RingEquiv.symm_apply_apply, symm_mred_sk hC hsk (by omega)]
      have : modDown C (fun i => (C.nttQ.equiv i).symm (tmp.Q.row i))
          (fun j => (C.nttP.equiv j).symm (tmp.P.row j)) i =
          ext C L (digit C L (c0.val C.nttQ)) sg.kv i :=
        modDown_congr (hacc.q i hi) fun j hj => hacc.p j hj
      rw [this, hE', add_sub_cancel_left])
    (fun i hi j => by
      have h1 := hWb j
      have h2 := hbig.q i (by omega)
      omega)]
  simp only [Go.ok_bind]
  show Except.ok (decide _) = _
  rw [decide_eq_true]
  exact (Nat.size_le_size (Nat.mod_le _ _)).trans (size_le_of_bdd hN (B := 1023) (by norm_num) hWb)

/-! ## Hadamard product -/

theorem forLt_update_each {α : Type _} (f : ℕ → α → α) (n : ℕ) (s : ℕ → α) (k : ℕ) :
    forLt n (fun i s => Function.update s i (f i (s i))) s k = if k < n then f k (s k) else s k := by
  induction n generalizing k with
  | zero => simp [forLt]
  | succ n ih =>
    show Function.update _ n _ k = _
    by_cases hk : k = n
    · subst hk
      rw [Function.update_self, ih, if_neg (by omega), if_pos (by omega)]
    · rw [Function.update_of_ne hk, ih]
      by_cases h : k < n
      · rw [if_pos h, if_pos (by omega)]
      · rw [if_neg h, if_neg (by omega)]

/-- Every family of residues is that of an integer polynomial. -/
theorem exists_int_lift (hC : C.Good) (c : (i : ℕ) → Nega C.N (ZMod (C.q i))) :
    ∃ z : Nega C.N ℤ, ∀ i < C.nQ, Nega.red (C.q i) z = c i := by
  have : ∀ j : Fin C.N, ∃ k : ℕ, ∀ i < C.nQ, ((k : ℤ) : ZMod (C.q i)) = (c i).coeff j := by
    intro j
    obtain ⟨k, hk⟩ := Nat.chineseRemainderOfFinset (fun i => ((c i).coeff j).val) C.q
      (Finset.range C.nQ) (fun i _ => (hC.posQ i).ne') (by
        intro a ha b hb hab
        exact hC.copQ a b (by simpa using ha) (by simpa using hb) hab)
    refine ⟨k, fun i hi => ?_⟩
    have : NeZero (C.q i) := ⟨(hC.posQ i).ne'⟩
    have h1 := (ZMod.natCast_eq_natCast_iff _ _ _).mpr (hk i (Finset.mem_range.mpr hi))
    rw [ZMod.natCast_zmod_val] at h1
    rw [← h1]
    push_cast
    rfl
  choose k hk using this
  refine ⟨⟨fun j => (k j : ℤ)⟩, fun i hi => ?_⟩
  ext j
  rw [Nega.coeff_red]
  exact hk j i hi

/-- What `testHadamardProduct` measures: `W` with `P·W = Σ_k d_k·(d_k·e_k) - r`, where `d_k` are
the digits of the ciphertext component and `r` is the rounding of the division by `P`. -/
theorem hadamard_spec (hC : C.Good) (hF : C.Fits) (hbig' : Above C 39) {crs : CRS C} {a : SwKey C}
    (ha : crs.get? 0 = some a) (halen : (a 0).Q.len = C.nQ) (pool poolQ : RQ C)
    {s e : Nega C.N ℤ} (u e0 e1 : Nega C.N ℤ) (hs : Small C s) (he : e.Bdd 19)
    {esg : ℕ → Nega C.N ℤ} (hesg : ∀ k, (esg k).Bdd 19) :
    ∃ (c : (i : ℕ) → Nega C.N (ZMod (C.q i))) (W r : Nega C.N ℤ),
      (∃ pk, GenPublicKey crs e (GenSecretKey s "tetsUser1") = .ok pk ∧
        ∀ i < C.nQ, c i = Nega.red (C.q i) u * (C.nttQ.equiv i).symm (pk.value0.Q.row i) +
          Nega.red (C.q i) e0) ∧ r.Bdd (2 * C.P) ∧
      (C.P : Nega C.N ℤ) * W = ∑ k ∈ range (C.beta C.lq),
        digit C C.lq c k * (digit C C.lq c k * esg k) - r ∧
      ∀ (B : ℕ), Above C (2 * B + 1) → W.Bdd B → ∀ slack logN : ℕ,
        testHadamardProduct slack logN crs pool poolQ s e u e0 e1 esg = .ok (decide (Nat.size
          (absSum W % ∏ i ∈ range C.nQ, C.q i) ≤ slack + 2 * logN)) := by
  have hnQ := hC.nQ_pos
  have hL : C.lq < C.nQ := by show C.nQ - 1 < _; omega
  obtain ⟨pk, pool', ct, h1, h2, h3, h4, h5, h5'⟩ := encrypt_zero_gen hC hbig' ha halen
    hs he "tetsUser1" (by decide) pool u e0 e1 hL true
  obtain ⟨c0, hc0⟩ := GoMap.exists_get?_of_mem h3.zero_mem
  have hntt := h3.ntt _ _ hc0
  have hclen := h3.len _ _ hc0
  have hsk := genSecretKey_isSK hC hs "tetsUser1"
  obtain ⟨gq, gp⟩ := genSwitchingKey_spec hC poolQ
    (fun k => small_of_above hC (B := 19) hbig' (hesg k)) (fun i hi => hsk.decQ hC hi) SwKey.new
  set sg := (GenSwitchingKey poolQ esg (GenSecretKey s "tetsUser1") SwKey.new).2 with hsg
  set c := c0.val C.nttQ with hc
  set d := digit C C.lq c with hd
  have hdig : IsDigits C C.lq d c := digit_isDigits hC hL c
  obtain ⟨inv, -, hH⟩ := decompose_spec hC (KS.new : KS C) C.lq c0 SwKey.new
  set cd := ((KS.new : KS C).Decompose C.lq c0 SwKey.new).2 with hcd
  set sg' : SwKey C := forLt (C.beta C.lq) (fun i sg => Function.update sg i
    (QP.mformLvl C.lq C.lp (QP.mulMontLvl C.lq C.lp (cd i) (sg i) (sg i))
      (QP.mulMontLvl C.lq C.lp (cd i) (sg i) (sg i)))) sg with hsg'
  have hsg'v : ∀ k < C.beta C.lq, sg' k = QP.mformLvl C.lq C.lp
      (QP.mulMontLvl C.lq C.lp (cd k) (sg k) (sg k))
      (QP.mulMontLvl C.lq C.lp (cd k) (sg k) (sg k)) := fun k hk => by
    rw [hsg', forLt_update_each (fun i x => QP.mformLvl C.lq C.lp
      (QP.mulMontLvl C.lq C.lp (cd i) x x) (QP.mulMontLvl C.lq C.lp (cd i) x x)), if_pos hk]
  obtain ⟨z, hz⟩ := exists_int_lift hC c
  have hsw : SwEq sg' sg' 0 (z * s) (fun k => d k * esg k) := by
    constructor
    · intro k hk i hi
      have hi' := hC.lq_lt.mpr hi
      have hk' : k < C.beta C.lq := hk
      rw [hsg'v k hk', map_zero, mul_zero, sub_zero]
      simp only [QP.mformLvl, RPoly.mformLvl, QP.mulMontLvl, RPoly.mulMontLvl,
        RPoly.write_row_of_le _ _ hi']
      rw [Ntt.dec_mform _ _ (hC.oddQ i), hH.q k hk' i hi']
      have : (fun j => RPoly.mred (C.nttQ.equiv i (Nega.red (C.q i) (d k)) j)
          ((sg k).Q.row i j)) = fun j => RPoly.mred ((sg k).Q.row i j)
            (C.nttQ.equiv i (Nega.red (C.q i) (d k)) j) := funext fun j => mred_comm _ _
      rw [this, symm_mred, gq k hk i hi, map_mul, map_mul, hz i hi]
      unfold gad
      by_cases hb : i / C.alpha = k
      · rw [if_pos hb]
        have := hdig i hi'
        rw [hb] at this
        rw [this]
        ring
      · rw [if_neg hb]
        simp only [Nat.cast_zero, zero_mul]
        ring
    · intro k hk j hj
      have hj' := hC.lp_lt.mpr hj
      have hk' : k < C.beta C.lq := hk
      rw [hsg'v k hk', map_zero, mul_zero, sub_zero]
      simp only [QP.mformLvl, RPoly.mformLvl, QP.mulMontLvl, RPoly.mulMontLvl,
        RPoly.write_row_of_le _ _ hj']
      rw [Ntt.dec_mform _ _ (hC.oddP j), hH.p k hk' j hj]
      have : (fun x => RPoly.mred (C.nttP.equiv j (Nega.red (C.p j) (d k)) x)
          ((sg k).P.row j x)) = fun x => RPoly.mred ((sg k).P.row j x)
            (C.nttP.equiv j (Nega.red (C.p j) (d k)) x) := funext fun x => mred_comm _ _
      rw [this, symm_mred, gp k hk j hj, map_mul]
      ring
  obtain ⟨W, hW, hE⟩ := ext_pair hC hsw hL hdig
  rw [zero_mul, add_zero] at hW
  refine ⟨c, W, _, ⟨pk, h1, fun i hi => ?_⟩, liftP_bdd hC hF _, hW, fun B hB hWB slack logN => ?_⟩
  · rw [← h5' i (hC.lq_lt.mpr hi), comp_of_get? hc0]
  · unfold testHadamardProduct
    dsimp only
    rw [h1]
    simp only [Go.ok_bind]
    rw [h2]
    simp only [Go.ok_bind]
    rw [GoMap.deref_of_get? hc0]
    simp only [Go.ok_bind]
    obtain ⟨_, _, _, hext⟩ := externalProduct_spec hC ((KS.new : KS C).Decompose C.lq c0 SwKey.new).1
      C.lq c0 sg' { (RPoly.new (C.lq + 1) : RQ C) with isNTT := true }
    set tmp := (((KS.new : KS C).Decompose C.lq c0 SwKey.new).1.ExternalProduct C.lq c0 sg'
      { (RPoly.new (C.lq + 1) : RQ C) with isNTT := true }).2 with htmp
    have htmp' : tmp = ({ (RPoly.new (C.lq + 1) : RQ C) with isNTT := true } : RQ C).write C.lq
        fun i => (ext C C.lq d sg'.kv i).coeff := by rw [htmp, hext]
    have hlen : tmp.len = C.lq + 1 := by rw [htmp']; rfl
    set tmp2 := RPoly.mformLvl C.lq (RPoly.mulMontLvl C.lq c0 (GenSecretKey s "tetsUser1").value.Q
      (RPoly.new (C.lq + 1))) (RPoly.mulMontLvl C.lq c0 (GenSecretKey s "tetsUser1").value.Q
      (RPoly.new (C.lq + 1))) with htmp2
    have hlv : (RPoly.invNttLvl C.nttQ C.lq (RPoly.mulMontSubLvl C.lq c0 tmp2
        (RPoly.nttLvl C.nttQ C.lq tmp tmp)) (RPoly.mulMontSubLvl C.lq c0 tmp2
        (RPoly.nttLvl C.nttQ C.lq tmp tmp))).level = C.lq := by
      show tmp.len - 1 = _
      rw [hlen]; rfl
    change (log2OfInnerSum C.nQ (RPoly.invNttLvl C.nttQ C.lq (RPoly.mulMontSubLvl C.lq c0 tmp2
        (RPoly.nttLvl C.nttQ C.lq tmp tmp)) (RPoly.mulMontSubLvl C.lq c0 tmp2
        (RPoly.nttLvl C.nttQ C.lq tmp tmp))).level _ >>= _) = _
    rw [hlv, norm_max hC hF hB (w := W) (by
      show tmp.len = _
      rw [hlen]; show C.nQ - 1 + 1 = _; omega) (fun i hi => ?_) hWB]
    · rfl
    · have hi' := hC.lq_lt.mp hi
      have hE' := hE i hi
      rw [map_zero, zero_mul, add_zero, map_mul, hz i hi'] at hE'
      simp only [RPoly.invNttLvl, RPoly.mulMontSubLvl, RPoly.nttLvl, RPoly.write_row_of_le _ _ hi]
      have e1 : ∀ (x : Nega C.N (ZMod (C.q i))) (y : Row C.N (C.q i)),
          (fun j => C.nttQ.equiv i x j - y j) = C.nttQ.equiv i x - y := fun _ _ => rfl
      have e2 : (fun j => RPoly.mred (c0.row i j) (tmp2.row i j)) =
          C.nttQ.equiv i (c i * (c i * Nega.red (C.q i) s)) := by
        have hci : c0.row i = C.nttQ.equiv i (c i) := by
          rw [hc, RPoly.val, if_pos hntt, RingEquiv.apply_symm_apply]
        funext j
        rw [htmp2]
        simp only [RPoly.mformLvl, RPoly.mulMontLvl, RPoly.write_row_of_le _ _ hi]
        rw [RPoly.mred_mont' (hC.oddQ i), hsk.q i hi' j, RPoly.mred_mont' (hC.oddQ i), hci,
          map_mul, map_mul]
        rfl
      have e3 : (⟨tmp.row i⟩ : Nega C.N (ZMod (C.q i))) = ext C C.lq d sg'.kv i := by
        rw [htmp', RPoly.write_row_of_le _ _ hi]
      rw [e1, e2, map_sub, RingEquiv.symm_apply_apply, RingEquiv.symm_apply_apply, e3, hE',
        add_sub_cancel_left]

theorem hadamard_bdd (hC : C.Good) (hF : C.Fits) {B D : ℕ} {W r : Nega C.N ℤ}
    {c : (i : ℕ) → Nega C.N (ZMod (C.q i))} {esg : ℕ → Nega C.N ℤ} (hesg : ∀ k, (esg k).Bdd 19)
    (hr : r.Bdd (2 * C.P)) (hW : (C.P : Nega C.N ℤ) * W = ∑ k ∈ range (C.beta C.lq),
        digit C C.lq c k * (digit C C.lq c k * esg k) - r)
    (hD : ∀ k < C.beta C.lq, 2 * blockSetProd C C.lq k ≤ D)
    (hnoise : C.beta C.lq * (C.N * (D * (C.N * (D * 19)))) + 2 * C.P ≤ B * C.P) : W.Bdd B := by
  have hP' : (0 : ℤ) < C.P := by exact_mod_cast hC.P_pos
  have hdb : ∀ k < C.beta C.lq, (digit C C.lq c k).Bdd D := fun k hk =>
    digit_Bdd hC hF (fun k hk => by
      rw [blockProd_eq hC.alpha_pos' hk]; exact_mod_cast hD k hk) hk c
  have hb : (∑ k ∈ range (C.beta C.lq), digit C C.lq c k * (digit C C.lq c k * esg k) - r).Bdd
      (C.beta C.lq * (C.N * (D * (C.N * (D * 19)))) + 2 * C.P) := by
    refine Nega.Bdd.sub ?_ hr
    refine (Nega.Bdd.sum_const (B := C.N * (D * (C.N * (D * 19)))) (range (C.beta C.lq)) _
      fun k hk => ?_).mono (le_of_eq ?_)
    · have hk' := mem_range.mp hk
      exact (hdb k hk').mul ((hdb k hk').mul (hesg k))
    · rw [card_range]
  intro x
  have h1 := hb x
  rw [← hW, Nega.coeff_natCast_mul, abs_mul, abs_of_pos hP'] at h1
  have h2 : ((C.beta C.lq * (C.N * (D * (C.N * (D * 19)))) + 2 * C.P : ℕ) : ℤ) ≤
    ((B * C.P : ℕ) : ℤ) := by exact_mod_cast hnoise
  push_cast at h2
  have h3 : (C.P : ℤ) * |W.coeff x| ≤ C.P * B := by linarith
  exact le_of_mul_le_mul_left h3 hP'

/-- **C68**, `HadamardProductMaxLevel`: the assertion holds for every key, every randomness and
all errors of the switching key within the sampler's bound as soon as
`β·N²·D²·19 + 2P ≤ B·P` with `B < 2^(slack+LogN)`, where `D` bounds twice the products of the
blocks of moduli.  (The test has `slack = 10`.) -/
theorem C68_Hadamard {logN : ℕ} (hN : C.N = 2 ^ logN) (hC : C.Good) (hF : C.Fits) {B : ℕ}
    (hB19 : 19 ≤ B) (hbig : Above C (2 * B + 1)) {crs : CRS C} {a : SwKey C}
    (ha : crs.get? 0 = some a)
    (halen : (a 0).Q.len = C.nQ) (pool poolQ : RQ C) {s e : Nega C.N ℤ} (u e0 e1 : Nega C.N ℤ)
    (hs : Small C s) (he : e.Bdd 19) {esg : ℕ → Nega C.N ℤ} (hesg : ∀ k, (esg k).Bdd 19) {D : ℕ}
    (hD : ∀ k < C.beta C.lq, 2 * blockSetProd C C.lq k ≤ D)
    (hnoise : C.beta C.lq * (C.N * (D * (C.N * (D * 19)))) + 2 * C.P ≤ B * C.P) {slack : ℕ}
    (hslack : B < 2 ^ (slack + logN)) :
    testHadamardProduct slack logN crs pool poolQ s e u e0 e1 esg = .ok true := by
  obtain ⟨c, W, r, -, hr, hW, h⟩ := hadamard_spec hC hF (hbig.mono (by omega)) ha halen pool poolQ
    u e0 e1 hs he hesg
  have hWb := hadamard_bdd hC hF hesg hr hW hD hnoise
  rw [h B hbig hWb, decide_eq_true]
  refine (Nat.size_le_size (Nat.mod_le _ _)).trans ((size_le_of_bdd hN hslack hWb).trans ?_)
  omega

/-- Multiplication by the all-one polynomial. -/
theorem ones_mul {N : ℕ} [NeZero N] (y : Nega N ℤ) (k : Fin N) :
    ((⟨fun _ => 1⟩ : Nega N ℤ) * y).coeff k = ∑ j : Fin N, if j ≤ k then y.coeff j else -y.coeff j := by
  show ∑ i : Fin N, ∑ j : Fin N, (if (i.val + j.val) % N = k.val then
    Nega.sgn N (i.val + j.val) • ((1 : ℤ) * y.coeff j) else 0) = _
  have hN : 0 < N := Nat.pos_of_ne_zero (NeZero.ne N)
  rw [Finset.sum_comm]
  refine Finset.sum_congr rfl fun j _ => ?_
  have hj := j.isLt
  have hk := k.isLt
  by_cases h : j ≤ k
  · have h' : j.val ≤ k.val := h
    rw [Finset.sum_eq_single ⟨k.val - j.val, by omega⟩]
    · rw [if_pos h]
      have e1 : k.val - j.val + j.val = k.val := by omega
      simp only [e1]
      rw [if_pos (Nat.mod_eq_of_lt hk)]
      simp [Nega.sgn, Nat.div_eq_of_lt hk]
    · intro i _ hi
      have hil := i.isLt
      rw [if_neg]
      intro hm
      apply hi
      apply Fin.ext
      show i.val = k.val - j.val
      by_cases hlt : i.val + j.val < N
      · rw [Nat.mod_eq_of_lt hlt] at hm; omega
      · rw [Nat.mod_eq_sub_mod (by omega), Nat.mod_eq_of_lt (by omega)] at hm; omega
    · intro h; exact absurd (mem_univ _) h
  · have h' : k.val < j.val := not_le.mp h
    rw [Finset.sum_eq_single ⟨N + k.val - j.val, by omega⟩]
    · rw [if_neg h]
      have e1 : N + k.val - j.val + j.val = N + k.val := by omega
      simp only [e1]
      rw [if_pos (by rw [Nat.add_mod_left, Nat.mod_eq_of_lt hk])]
      have : (N + k.val) / N = 1 := by
        rw [Nat.add_div_left _ hN, Nat.div_eq_of_lt hk]
      simp [Nega.sgn, this]
    · intro i _ hi
      have hil := i.isLt
      rw [if_neg]
      intro hm
      apply hi
      apply Fin.ext
      show i.val = N + k.val - j.val
      by_cases hlt : i.val + j.val < N
      · rw [Nat.mod_eq_of_lt hlt] at hm; omega
      · rw [Nat.mod_eq_sub_mod (by omega), Nat.mod_eq_of_lt (by omega)] at hm; omega
    · intro h; exact absurd (mem_univ _) h

/-- Multiplication by a constant vector. -/
theorem vec_mul {N : ℕ} [NeZero N] (c : ℤ) (y : Nega N ℤ) (k : Fin N) :
    ((⟨fun _ => c⟩ : Nega N ℤ) * y).coeff k = c * ((⟨fun _ => 1⟩ : Nega N ℤ) * y).coeff k := by
  show ∑ i : Fin N, ∑ j : Fin N, (if (i.val + j.val) % N = k.val then
    Nega.sgn N (i.val + j.val) • (c * y.coeff j) else 0) = c * ∑ i : Fin N, ∑ j : Fin N,
    (if (i.val + j.val) % N = k.val then Nega.sgn N (i.val + j.val) • ((1 : ℤ) * y.coeff j) else 0)
  rw [Finset.mul_sum]
  refine Finset.sum_congr rfl fun i _ => ?_
  rw [Finset.mul_sum]
  refine Finset.sum_congr rfl fun j _ => ?_
  split
  · simp only [one_mul, smul_eq_mul]
    ring
  · rw [mul_zero]

theorem sum_lin (N : ℤ) (n : ℕ) : ∑ j ∈ range n, (2 * ((j : ℤ) + 1) - N) = n * (n + 1) - N * n := by
  induction n with
  | zero => simp
  | succ n ih => rw [sum_range_succ, ih]; push_cast; ring

theorem sum_quad (N : ℤ) (n : ℕ) :
    3 * ∑ k ∈ range n, (2 * ((k : ℤ) + 1) * (N - k - 2) + N) =
      3 * (N - 1) * n * (n + 1) - n * (n + 1) * (2 * n + 1) + 3 * n * N := by
  induction n with
  | zero => simp
  | succ n ih => rw [sum_range_succ, mul_add, ih]; push_cast; ring

theorem sum_split {N m : ℕ} (hm : m < N) (f : ℕ → ℤ) :
    ∑ j ∈ range N, (if j < m + 1 then f j else -f j) =
      2 * (∑ j ∈ range (m + 1), f j) - ∑ j ∈ range N, f j := by
  obtain ⟨d, rfl⟩ : ∃ d, N = m + 1 + d := ⟨N - (m + 1), by omega⟩
  have hadd : ∀ g : ℕ → ℤ, ∑ j ∈ range (m + 1 + d), g j =
      ∑ j ∈ range (m + 1), g j + ∑ x ∈ range d, g (m + 1 + x) := fun g =>
    Finset.sum_range_add g (m + 1) d
  rw [hadd, hadd f]
  have a1 : ∑ j ∈ range (m + 1), (if j < m + 1 then f j else -f j) = ∑ j ∈ range (m + 1), f j :=
    Finset.sum_congr rfl fun j hj => if_pos (mem_range.mp hj)
  have a2 : ∑ x ∈ range d, (if m + 1 + x < m + 1 then f (m + 1 + x) else -f (m + 1 + x)) =
      -∑ x ∈ range d, f (m + 1 + x) := by
    rw [← Finset.sum_neg_distrib]
    exact Finset.sum_congr rfl fun j _ => if_neg (by omega)
  rw [a1, a2]
  ring

/-- The cube of the all-one polynomial. -/
theorem vec_cube {N : ℕ} [NeZero N] (c e : ℤ) (k : Fin N) :
    ((⟨fun _ => c⟩ : Nega N ℤ) * (⟨fun _ => c⟩ * ⟨fun _ => e⟩)).coeff k =
      -(c * c * e * (2 * ((k.val : ℤ) + 1) * (N - k.val - 2) + N)) := by
  rw [vec_mul, ones_mul]
  have h1 : ∀ j : Fin N, ((⟨fun _ => c⟩ : Nega N ℤ) * ⟨fun _ => e⟩).coeff j =
      c * (e * (2 * (j.val + 1) - N)) := fun j => by rw [vec_mul, ones_mul_const]
  simp only [h1]
  have h2 : (∑ j : Fin N, if j ≤ k then c * (e * (2 * ((j.val : ℤ) + 1) - N)) else
      -(c * (e * (2 * ((j.val : ℤ) + 1) - N)))) =
      2 * (∑ j ∈ range (k.val + 1), c * (e * (2 * ((j : ℤ) + 1) - N))) -
        ∑ j ∈ range N, c * (e * (2 * ((j : ℤ) + 1) - N)) := by
    have e1 : (∑ j : Fin N, if j ≤ k then c * (e * (2 * ((j.val : ℤ) + 1) - N)) else
      -(c * (e * (2 * ((j.val : ℤ) + 1) - N)))) = ∑ j ∈ range N, if j < k.val + 1 then
        c * (e * (2 * ((j : ℤ) + 1) - N)) else -(c * (e * (2 * ((j : ℤ) + 1) - N))) := by
      rw [← Fin.sum_univ_eq_sum_range (fun j : ℕ => if j < k.val + 1 then
        c * (e * (2 * ((j : ℤ) + 1) - N)) else -(c * (e * (2 * ((j : ℤ) + 1) - N))))]
      refine Finset.sum_congr rfl fun j _ => ?_
      have : j ≤ k ↔ j.val < k.val + 1 := by rw [Fin.le_def]; omega
      by_cases h : j ≤ k
      · rw [if_pos h, if_pos (this.mp h)]
      · rw [if_neg h, if_neg (fun hh => h (this.mpr hh))]
    rw [e1]
    exact sum_split k.isLt fun j => c * (e * (2 * ((j : ℤ) + 1) - N))
  rw [h2]
  simp only [← Finset.mul_sum]
  rw [sum_lin, sum_lin]
  push_cast
  ring

theorem absSum_cube {N : ℕ} [NeZero N] (c e : ℤ) :
    c * c * e * (N * (N ^ 2 - 4)) ≤
      3 * ∑ k : Fin N, |((⟨fun _ => c⟩ : Nega N ℤ) * (⟨fun _ => c⟩ * ⟨fun _ => e⟩)).coeff k| := by
  have h1 : c * c * e * (3 * ∑ k ∈ range N, (2 * ((k : ℤ) + 1) * (N - k - 2) + N)) =
      3 * ∑ k : Fin N, c * c * e * (2 * ((k.val : ℤ) + 1) * (N - k.val - 2) + N) := by
    rw [← Fin.sum_univ_eq_sum_range (fun k : ℕ => (2 * ((k : ℤ) + 1) * (N - k - 2) + N)),
      ← Finset.mul_sum]
    ring
  rw [sum_quad] at h1
  have h2 : c * c * e * (N * (N ^ 2 - 4)) =
      3 * ∑ k : Fin N, c * c * e * (2 * ((k.val : ℤ) + 1) * (N - k.val - 2) + N) := by
    rw [← h1]; ring
  rw [h2]
  refine mul_le_mul_of_nonneg_left (Finset.sum_le_sum fun k _ => ?_) (by norm_num)
  rw [vec_cube, abs_neg]
  exact le_abs_self _

/-- The digit of a constant vector is a constant vector. -/
theorem digit_const (hC : C.Good) (δ : ℤ) {c : (i : ℕ) → Nega C.N (ZMod (C.q i))}
    (hc : ∀ i < C.nQ, c i = Nega.red (C.q i) ⟨fun _ => δ⟩) :
    ∃ δ' : ℤ, digit C C.lq c 0 = ⟨fun _ => δ'⟩ ∧ (blockSetProd C C.lq 0 : ℤ) ∣ δ' - δ := by
  have hnQ := hC.nQ_pos
  have hL : C.lq < C.nQ := by show C.nQ - 1 < _; omega
  have hβ := beta_pos hC.alpha_pos' C.lq
  rw [digit_congr hC.alpha_pos' hβ (c' := fun i => Nega.red (C.q i) ⟨fun _ => δ⟩)
    fun i hi => hc i (by omega)]
  have hconst : ∀ x y, (digit C C.lq (fun i => Nega.red (C.q i) ⟨fun _ => δ⟩) 0).coeff x =
      (digit C C.lq (fun i => Nega.red (C.q i) ⟨fun _ => δ⟩) 0).coeff y := fun x y => rfl
  have hx0 : Fin C.N := ⟨0, Nat.pos_of_ne_zero (NeZero.ne C.N)⟩
  refine ⟨(digit C C.lq (fun i => Nega.red (C.q i) ⟨fun _ => δ⟩) 0).coeff hx0, ?_, ?_⟩
  · ext x
    exact hconst x hx0
  · unfold blockSetProd
    push_cast
    refine Finset.prod_dvd_of_coprime ?_ ?_
    · intro i hi j hj hij
      rw [mem_coe, mem_filter, mem_range] at hi hj
      exact Nat.isCoprime_iff_coprime.mpr (hC.copQ i j (by omega) (by omega) hij)
    · intro i hi
      rw [mem_filter, mem_range] at hi
      have h := digit_red hC hL (i := i) (by omega) (fun i => Nega.red (C.q i) ⟨fun _ => δ⟩)
      rw [hi.2] at h
      have h' := congrArg (fun z => z.coeff hx0) h
      simp only [Nega.coeff_red] at h'
      exact (ZMod.intCast_eq_intCast_iff_dvd_sub _ _ _).mp h'.symm

/-- **C68**, `HadamardProductMaxLevel`, negative part: if the first block of moduli is as large
as a square root of `P` requires — `12·P·(1024·N+2) ≤ 19·(B₀-1)²·(N²-4)` — then for some value of
the common reference string some samples within the samplers' bounds violate the assertion. -/
theorem C68_Hadamard_can_fail {logN : ℕ} (hN : C.N = 2 ^ logN) (hC : C.Good) (hF : C.Fits) {B : ℕ}
    (hB19 : 19 ≤ B) (hbig : Above C (2 * B + 1)) {D : ℕ}
    (hD : ∀ k < C.beta C.lq, 2 * blockSetProd C C.lq k ≤ D)
    (hnoise : C.beta C.lq * (C.N * (D * (C.N * (D * 19)))) + 2 * C.P ≤ B * C.P)
    (hprod : B * C.N < ∏ i ∈ range C.nQ, C.q i) (hN2 : 2 ≤ C.N)
    (hbad : 12 * C.P * (1024 * C.N + 2) ≤
      19 * (blockSetProd C C.lq 0 - 1) ^ 2 * (C.N ^ 2 - 4)) :
    ∃ a : SwKey C, FullLen a ∧ ∀ crs : CRS C, crs.get? 0 = some a →
      ∃ (x : Samples C) (esg : ℕ → Nega C.N ℤ), x.Ok ∧ (∀ k, (esg k).Bdd 19) ∧
        ∀ pool poolQ : RQ C, testHadamardProduct 10 logN crs pool poolQ x.s x.e x.u x.e0 x.e1 esg =
          .ok false := by
  set B0 := blockSetProd C C.lq 0 with hB0
  set δ : ℤ := ((B0 / 2 : ℕ) : ℤ) with hδ
  set v : Nega C.N ℤ := ⟨fun _ => δ⟩ with hv
  set a : SwKey C := fun _ => ⟨⟨C.nQ, fun i => C.nttQ.equiv i (Nega.red (C.q i) (-v)), false⟩,
    ⟨C.nP, fun _ => 0, false⟩⟩ with ha
  have hone : (1 : Nega C.N ℤ).Bdd 1 := fun j => by
    rw [Nega.coeff_one]
    split <;> norm_num
  have hzero : (0 : Nega C.N ℤ).Bdd 19 := fun j => by
    show |(0 : ℤ)| ≤ 19; norm_num
  set esg : ℕ → Nega C.N ℤ := fun k => if k = 0 then ⟨fun _ => 19⟩ else 0 with hesgd
  have hesg : ∀ k, (esg k).Bdd 19 := fun k => by
    rw [hesgd]
    dsimp only
    split
    · intro j; show |(19 : ℤ)| ≤ 19; norm_num
    · exact hzero
  have hsm : Small C (1 : Nega C.N ℤ) := small_of_above hC hbig (hone.mono (by
    have : (19 : ℤ) ≤ B := by exact_mod_cast hB19
    linarith))
  refine ⟨a, fun _ => ⟨rfl, rfl⟩, fun crs hcrs => ⟨⟨1, 0, 1, 0, 0⟩, esg,
    ⟨hone, hzero, hone, hzero, hzero⟩, hesg, fun pool poolQ => ?_⟩⟩
  dsimp only
  obtain ⟨c, W, r, ⟨pk, hpk, hc⟩, hr, hW, h⟩ := hadamard_spec hC hF (hbig.mono (by omega)) hcrs rfl
    pool poolQ 1 0 0 hsm hzero hesg
  have hWb := hadamard_bdd hC hF hesg hr hW hD hnoise
  rw [h B hbig hWb, decide_eq_false]
  have hcv : ∀ i < C.nQ, c i = Nega.red (C.q i) v := by
    intro i hi
    obtain ⟨pk', hpk', -, hIs⟩ := C34_public_key hC hcrs rfl
      (small_of_above hC (hbig.mono (by omega : 2 * 19 + 1 ≤ _)) hzero)
      (genSecretKey_isSK hC hsm "tetsUser1")
    rw [hpk] at hpk'
    injection hpk' with hpk'
    subst hpk'
    have h1 : pk.value1.Q.row i = C.nttQ.equiv i (Nega.red (C.q i) (-v)) := by
      unfold GenPublicKey at hpk
      rw [GoMap.deref_of_get? hcrs] at hpk
      simp only [Go.ok_bind, Go.pure_eq] at hpk
      injection hpk with hpk
      subst hpk
      show (if i < min C.nQ C.nQ then _ else _) = _
      rw [min_self, if_pos hi]
    have h2 := hIs i hi
    rw [h1, RingEquiv.symm_apply_apply, map_one, mul_one, map_neg, map_zero] at h2
    rw [hc i hi, map_one, one_mul, map_zero, add_zero]
    exact add_neg_eq_zero.mp h2
  obtain ⟨δ', hδ', hdvd⟩ := digit_const hC δ hcv
  have hβ := beta_pos hC.alpha_pos' C.lq
  have hsum : ∑ k ∈ range (C.beta C.lq), digit C C.lq c k * (digit C C.lq c k * esg k) =
      ⟨fun _ => δ'⟩ * (⟨fun _ => δ'⟩ * ⟨fun _ => 19⟩) := by
    rw [Finset.sum_eq_single 0]
    · rw [hδ', hesgd]; rfl
    · intro k _ hk
      rw [hesgd]
      dsimp only
      rw [if_neg hk, mul_zero, mul_zero]
    · intro h; exact absurd (mem_range.mpr hβ) h
  rw [hsum] at hW
  have hδ2 : (B0 : ℤ) - 1 ≤ 2 * |δ'| := by
    obtain ⟨m, hm⟩ := hdvd
    have hB : (0 : ℤ) ≤ B0 := Int.natCast_nonneg _
    have hd1 : (B0 : ℤ) - 1 ≤ 2 * δ ∧ 2 * δ ≤ B0 := by omega
    rcases le_or_gt 0 m with h0 | h0
    · have : (0 : ℤ) ≤ B0 * m := mul_nonneg hB h0
      have := le_abs_self δ'
      linarith
    · have : (B0 : ℤ) * m ≤ B0 * (-1) := mul_le_mul_of_nonneg_left (by omega) hB
      have := neg_abs_le δ'
      linarith
  have hcube := absSum_cube (N := C.N) δ' 19
  have hlow : (∑ k : Fin C.N, |((⟨fun _ => δ'⟩ : Nega C.N ℤ) * (⟨fun _ => δ'⟩ *
      ⟨fun _ => 19⟩)).coeff k|) ≤ C.P * absSum W + 2 * C.P * C.N := by
    have hS : (absSum W : ℤ) = ∑ k, |W.coeff k| := by
      unfold absSum
      push_cast
      rfl
    rw [hS, Finset.mul_sum]
    refine (Finset.sum_le_sum (g := fun k => (C.P : ℤ) * |W.coeff k| + 2 * C.P) fun k _ => ?_).trans
      (le_of_eq ?_)
    · have h3 : (((⟨fun _ => δ'⟩ : Nega C.N ℤ) * (⟨fun _ => δ'⟩ * ⟨fun _ => 19⟩)).coeff k) =
          C.P * W.coeff k + r.coeff k := by
        have := congrArg (fun z => z.coeff k) hW
        simp only [Nega.coeff_sub, Nega.coeff_natCast_mul] at this
        linarith
      rw [h3]
      have h4 := hr k
      have h5 := abs_add_le ((C.P : ℤ) * W.coeff k) (r.coeff k)
      rw [abs_mul, abs_of_nonneg (Int.natCast_nonneg C.P)] at h5
      linarith
    · rw [Finset.sum_add_distrib, Finset.sum_const, Finset.card_univ, Fintype.card_fin, nsmul_eq_mul]
      ring
  rw [absSum_lt_prod hWb hprod, Nat.size_le, not_lt, two_mul, ← add_assoc, pow_add, pow_add, ← hN]
  have hB1 : 1 ≤ B0 := by
    rw [hB0]
    exact Nat.one_le_iff_ne_zero.mpr (Finset.prod_ne_zero_iff.mpr fun i _ => (hC.posQ i).ne')
  have hN4 : 4 ≤ C.N ^ 2 := by nlinarith
  have hbad' : 12 * (C.P : ℤ) * (1024 * C.N + 2) ≤ 19 * ((B0 : ℤ) - 1) ^ 2 * ((C.N : ℤ) ^ 2 - 4) := by
    have := hbad
    zify [hB1, hN4] at this
    exact this
  have hsq : ((B0 : ℤ) - 1) ^ 2 ≤ 4 * (δ' * δ') := by
    have h0 : (0 : ℤ) ≤ (B0 : ℤ) - 1 := by
      have : (1 : ℤ) ≤ B0 := by exact_mod_cast hB1
      linarith
    have h1 := pow_le_pow_left₀ h0 hδ2 2
    rw [mul_pow, sq_abs] at h1
    linarith
  have hN4' : (0 : ℤ) ≤ (C.N : ℤ) ^ 2 - 4 := by
    have : (4 : ℤ) ≤ (C.N : ℤ) ^ 2 := by exact_mod_cast hN4
    linarith
  have hNn : (0 : ℤ) ≤ C.N := Int.natCast_nonneg _
  have hPpos : (0 : ℤ) < C.P := by exact_mod_cast hC.P_pos
  have e1 := mul_le_mul_of_nonneg_right hsq (mul_nonneg hNn hN4')
  have e2 := mul_le_mul_of_nonneg_right hbad' hNn
  have e3 : (12 * (C.P : ℤ)) * (1024 * (C.N * C.N)) ≤ (12 * C.P) * absSum W := by
    nlinarith
  have e4 := le_of_mul_le_mul_left e3 (by linarith)
  have e5 : 1024 * (C.N * C.N) ≤ absSum W := by exact_mod_cast e4
  linarith

end MK
