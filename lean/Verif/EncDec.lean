import Verif.Ct

/-!
# mkrlwe/encryptor.go, mkrlwe/decryptor.go and the key types
-/

noncomputable section

namespace MK

/-- `mkrlwe.SecretKey` (mkrlwe/keys.go 6-9). -/
structure SecretKey (C : Ctx) where
  id : String
  value : QP C

/-- `mkrlwe.PublicKey` (mkrlwe/keys.go 17-20). -/
structure PublicKey (C : Ctx) where
  id : String
  value0 : QP C
  value1 : QP C

variable {C : Ctx}

/-- Lines 74-111 of `Encrypt` (mkrlwe/encryptor.go): adding errors and message to the two
products, by ciphertext and plaintext domain.  Returns pool, `ctOut["0"]`, `ctOut[id]`. -/
def encryptAdd (levelQ ctLevel : ℕ) (ciphertextNTT : Bool) (e0 e1 : Nega C.N ℤ)
    (plaintext pool c0 c1 : RQ C) : RQ C × RQ C × RQ C :=
  if ciphertextNTT then
    -- lines 77-79
    let pool := pool.readLvl levelQ e1
    let pool := pool.nttLvl C.nttQ levelQ pool
    let c1 := RPoly.addLvl levelQ c1 pool c1
    -- line 82
    let pool := pool.readLvl levelQ e0
    if !plaintext.isNTT then
      let pool := RPoly.addLvl levelQ pool plaintext pool
      let pool := pool.nttLvl C.nttQ levelQ pool
      (pool, RPoly.addLvl levelQ c0 pool c0, c1)
    else
      let pool := pool.nttLvl C.nttQ levelQ pool
      let c0 := RPoly.addLvl levelQ c0 pool c0
      (pool, RPoly.addLvl levelQ c0 plaintext c0, c1)
  else
    -- lines 96-103
    let c0 := c0.invNttLvl C.nttQ levelQ c0
    let c1 := c1.invNttLvl C.nttQ levelQ c1
    let c0 := c0.readAndAddLvl ctLevel e0
    let c1 := c1.readAndAddLvl ctLevel e1
    if !plaintext.isNTT then
      (pool, RPoly.addLvl levelQ c0 plaintext c0, c1)
    else
      let pool := plaintext.invNttLvl C.nttQ levelQ pool
      (pool, RPoly.addLvl levelQ c0 pool c0, c1)

/-- `Encrypt` (mkrlwe/encryptor.go 55-118).  `pool` is the scratch polynomial
`encryptor.poolQ[0]`; `u`, `e0`, `e1` are the sampled polynomials.  The plaintext is given by
its `Value` polynomial.  Returns the scratch polynomial and `ctOut`.  The two components are kept in
local variables, which differs from the code when `pk.ID = "0"` (they are then one polynomial; see
`encryptV_eq` and `C57_reserved_id`). -/
def Encrypt (pool : RQ C) (u e0 e1 : Nega C.N ℤ) (plaintext : RQ C) (pk : PublicKey C)
    (ctOut : Ct C) : Go (RQ C × Ct C) := do
  let id := pk.id
  let ctLevel ← ctOut.Level
  let levelQ := min plaintext.level ctLevel
  let c0 ← ctOut.value.deref "0"
  let ciphertextNTT := c0.isNTT
  -- lines 65-67
  let pool := pool.readLvl levelQ u
  let pool := pool.nttLvl C.nttQ levelQ pool
  let pool := pool.mformLvl levelQ pool
  -- lines 70, 72
  let c0 := RPoly.mulMontLvl levelQ pool pk.value0.Q c0
  let m := ctOut.value.set "0" c0
  let c1 ← m.deref id
  let c1 := RPoly.mulMontLvl levelQ pool pk.value1.Q c1
  let (pool, c0, c1) := encryptAdd levelQ ctLevel ciphertextNTT e0 e1 plaintext pool c0 c1
  -- lines 113-116
  let c1 := { c1 with isNTT := c0.isNTT }
  let c0 := c0.truncate (levelQ + 1)
  let c1 := c1.truncate (levelQ + 1)
  return (pool, ⟨(m.set "0" c0).set id c1⟩)

/-- `PartialDecrypt` (mkrlwe/decryptor.go 26-43).  Every statement writes back through the
map, as the Go code does. -/
def PartialDecrypt (ct : Ct C) (sk : SecretKey C) : Go (Ct C) := do
  let id := sk.id
  let level ← ct.Level
  let c ← ct.value.deref id
  let c := if !c.isNTT then c.nttLvl C.nttQ level c else c
  let c := RPoly.mulMontLvl level c sk.value.Q c
  let c := if !c.isNTT then c.invNttLvl C.nttQ level c else c
  let m := ct.value.set id c
  let c0 ← m.deref "0"
  let c ← m.deref id
  let m := m.set "0" (RPoly.addLvl level c0 c c0)
  return ⟨m.del id⟩

/-- The loop `for _, sk := range skSet.Value` of `Decrypt` (mkrlwe/decryptor.go 55-59); `o` lists the map keys in
visiting order. -/
def decryptLoop (idset : IDSet) (skSet : KeySet (SecretKey C)) (ct : Ct C) :
    List String → Go (Ct C)
  | [] => .ok ct
  | k :: o => do
    let sk ← skSet.value.deref k
    if idset.Has sk.id then
      let ct ← PartialDecrypt ct sk
      decryptLoop idset skSet ct o
    else decryptLoop idset skSet ct o

/-- `Decrypt` (mkrlwe/decryptor.go 48-66).  `oC`, `oI`, `oS` are the visiting orders of the
ciphertext map in `CopyNew`, of its copy in `IDSet`, and of the secret-key map. -/
def Decrypt (ciphertext : Ct C) (skSet : KeySet (SecretKey C)) (plaintext : RQ C)
    (oC oI oS : List String) : Go (RQ C) := do
  let ctLevel ← ciphertext.Level
  let level := min ctLevel plaintext.level
  let plaintext := plaintext.truncate (level + 1)
  let ctTmp ← ciphertext.CopyNew oC
  let idset ← ctTmp.IDSet oI
  let ctTmp ← decryptLoop idset skSet ctTmp oS
  if ctTmp.value.size > 1 then
    .error (.msg "Cannot Decrypt: there is a missing secretkey")
  else
    let c0 ← ctTmp.value.deref "0"
    return c0.copyLvl level plaintext

/-! ## Specification of keys -/

/-- The rows of a switching-type polynomial hold the ring element `x` in NTT and Montgomery
form, for every modulus of the chain. -/
def EncodesQ (poly : RQ C) (x : (i : ℕ) → Nega C.N (ZMod (C.q i))) : Prop :=
  ∀ i < C.nQ, ∀ j, poly.row i j = (montR : ZMod (C.q i)) * C.nttQ.equiv i (x i) j

/-- The same modulo the special primes. -/
def EncodesP (poly : RP C) (x : (i : ℕ) → Nega C.N (ZMod (C.p i))) : Prop :=
  ∀ i < C.nP, ∀ j, poly.row i j = (montR : ZMod (C.p i)) * C.nttP.equiv i (x i) j

/-- `sk` stores the integer polynomial `s` in NTT and Montgomery form modulo every prime. -/
structure IsSK (sk : SecretKey C) (s : Nega C.N ℤ) : Prop where
  q : EncodesQ sk.value.Q fun i => Nega.red (C.q i) s
  p : EncodesP sk.value.P fun i => Nega.red (C.p i) s

/-- `pk` is a public key of `s` with error `e`: `pk0 + pk1*s = e` modulo every `q_i` (both
components are in NTT form). -/
def IsPK (pk : PublicKey C) (s e : Nega C.N ℤ) : Prop :=
  ∀ i < C.nQ, (C.nttQ.equiv i).symm (pk.value0.Q.row i) +
    (C.nttQ.equiv i).symm (pk.value1.Q.row i) * Nega.red (C.q i) s = Nega.red (C.q i) e

/-! ## Values of ring operations -/

section Val

variable {N : ℕ} [NeZero N] {m : ℕ → ℕ} (D : Ntt N m)

theorem RPoly.val_true {p : RPoly N m} (h : p.isNTT = true) (i : ℕ) :
    p.val D i = (D.equiv i).symm (p.row i) := by simp [RPoly.val, h]

theorem RPoly.val_false {p : RPoly N m} (h : p.isNTT = false) (i : ℕ) :
    p.val D i = ⟨p.row i⟩ := by simp [RPoly.val, h]

theorem RPoly.val_congr {p p' : RPoly N m} (h : p.isNTT = p'.isNTT) {i : ℕ}
    (hr : p.row i = p'.row i) : p.val D i = p'.val D i := by
  unfold RPoly.val; rw [h, hr]

theorem RPoly.val_addLvl {l : ℕ} {a b out : RPoly N m} {i : ℕ} (hi : i ≤ l)
    (ha : a.isNTT = out.isNTT) (hb : b.isNTT = out.isNTT) :
    (RPoly.addLvl l a b out).val D i = a.val D i + b.val D i := by
  unfold RPoly.val
  rw [ha, hb]
  simp only [RPoly.addLvl, RPoly.write_isNTT, RPoly.write_row_of_le _ _ hi]
  split
  · rw [map_add]
  · rfl

theorem RPoly.val_subLvl {l : ℕ} {a b out : RPoly N m} {i : ℕ} (hi : i ≤ l)
    (ha : a.isNTT = out.isNTT) (hb : b.isNTT = out.isNTT) :
    (RPoly.subLvl l a b out).val D i = a.val D i - b.val D i := by
  unfold RPoly.val
  rw [ha, hb]
  simp only [RPoly.subLvl, RPoly.write_isNTT, RPoly.write_row_of_le _ _ hi]
  split
  · rw [map_sub]
  · rfl

theorem RPoly.val_negLvl {l : ℕ} {a out : RPoly N m} {i : ℕ} (hi : i ≤ l)
    (ha : a.isNTT = out.isNTT) :
    (RPoly.negLvl l a out).val D i = - a.val D i := by
  unfold RPoly.val
  rw [ha]
  simp only [RPoly.negLvl, RPoly.write_isNTT, RPoly.write_row_of_le _ _ hi]
  split
  · rw [map_neg]
  · rfl

end Val

/-! ## PartialDecrypt -/

theorem partialDecrypt_ok {ct : Ct C} {L : ℕ} {b : Bool} (hw : ct.Ragged L b)
    {sk : SecretKey C} (h0 : sk.id ≠ "0") (hid : sk.id ∈ ct.value.keys) :
    ∃ r, PartialDecrypt ct sk = .ok r ∧ r.Ragged L b ∧
      (∀ k, k ∈ r.value.keys ↔ k ∈ ct.value.keys ∧ k ≠ sk.id) ∧
      (∀ k i, k ≠ "0" → k ≠ sk.id → r.comp k i = ct.comp k i) ∧
      (∀ s, C.Good → L < C.nQ → IsSK sk s → ∀ i ≤ L,
        r.comp "0" i = ct.comp "0" i + ct.comp sk.id i * Nega.red (C.q i) s) := by
  obtain ⟨c, hc⟩ := GoMap.exists_get?_of_mem hid
  obtain ⟨c0, hc0⟩ := GoMap.exists_get?_of_mem hw.zero_mem
  have hcb := hw.ntt _ _ hc
  have hc0b := hw.ntt _ _ hc0
  -- the product polynomial
  have key : ∃ c' : RQ C, c'.isNTT = b ∧ c'.len = c.len ∧
      (∀ s, C.Good → L < C.nQ → IsSK sk s → ∀ i ≤ L,
        c'.val C.nttQ i = c.val C.nttQ i * Nega.red (C.q i) s) ∧
      (let x := if !c.isNTT then c.nttLvl C.nttQ L c else c
       let x := RPoly.mulMontLvl L x sk.value.Q x
       if !x.isNTT then x.invNttLvl C.nttQ L x else x) = c' := by
    refine ⟨_, ?_, ?_, ?_, rfl⟩
    · cases b <;> simp [hcb, RPoly.mulMontLvl, RPoly.nttLvl, RPoly.invNttLvl]
    · cases b <;> simp [hcb, RPoly.mulMontLvl, RPoly.nttLvl, RPoly.invNttLvl]
    · intro s hC hL hs i hi
      have hsk : ∀ x : Row C.N (C.q i), (fun j => RPoly.mred (x j) (sk.value.Q.row i j)) =
          x * C.nttQ.equiv i (Nega.red (C.q i) s) := by
        intro x; funext j
        rw [hs.q i (by omega) j, RPoly.mred_mont' (hC.oddQ i)]; rfl
      cases b
      · have e1 : c.val C.nttQ i = ⟨c.row i⟩ := RPoly.val_false _ hcb i
        simp only [hcb, Bool.not_false, if_true, RPoly.mulMontLvl, RPoly.nttLvl,
          RPoly.write_isNTT, RPoly.invNttLvl]
        rw [RPoly.val_false _ (by simpa using hcb), RPoly.write_row_of_le _ _ hi,
          RPoly.write_row_of_le _ _ hi, RPoly.write_row_of_le _ _ hi, hsk, map_mul, e1]
        simp
      · have e1 : c.val C.nttQ i = (C.nttQ.equiv i).symm (c.row i) := RPoly.val_true _ hcb i
        simp only [hcb, Bool.not_true, Bool.false_eq_true, if_false, RPoly.mulMontLvl,
          RPoly.write_isNTT]
        rw [RPoly.val_true _ (by simpa using hcb), RPoly.write_row_of_le _ _ hi, hsk, map_mul, e1]
        simp
  obtain ⟨c', hb', hlen', hval', he⟩ := key
  have hne : ("0" : String) ≠ sk.id := fun h => h0 h.symm
  refine ⟨⟨((ct.value.set sk.id c').set "0" (RPoly.addLvl L c0 c' c0)).del sk.id⟩, ?_, ?_, ?_,
    ?_, ?_⟩
  · unfold PartialDecrypt
    simp only [hw.level, Go.ok_bind, GoMap.deref_of_get? hc]
    dsimp only at he
    rw [he]
    rw [GoMap.deref_of_get? (show (ct.value.set sk.id c').get? "0" = some c0 by
        rw [GoMap.get?_set_of_ne _ _ hne, hc0]),
      GoMap.deref_of_get? (GoMap.get?_set_self _ _ _)]
    rfl
  · refine ⟨((hw.wf.set _ _).set _ _).del _, ?_, ?_, ?_, ?_⟩
    · rw [GoMap.mem_keys_del, GoMap.mem_keys_set]; exact ⟨Or.inl rfl, hne⟩
    · intro p hp
      rw [GoMap.get?_del, if_neg hne, GoMap.get?_set_self] at hp
      cases hp; exact hw.len0 c0 hc0
    · intro id p hp
      rw [GoMap.get?_del] at hp
      split at hp
      · cases hp
      · rw [GoMap.get?_set] at hp
        split at hp
        · cases hp; exact hw.len "0" c0 hc0
        · rw [GoMap.get?_set_of_ne _ _ (by assumption)] at hp
          exact hw.len _ _ hp
    · intro id p hp
      rw [GoMap.get?_del] at hp
      split at hp
      · cases hp
      · rw [GoMap.get?_set] at hp
        split at hp
        · cases hp; exact hw.ntt "0" c0 hc0
        · rw [GoMap.get?_set_of_ne _ _ (by assumption)] at hp
          exact hw.ntt _ _ hp
  · intro k
    rw [GoMap.mem_keys_del, GoMap.mem_keys_set, GoMap.mem_keys_set]
    constructor
    · rintro ⟨rfl | rfl | h, h'⟩
      · exact ⟨hw.zero_mem, h'⟩
      · exact absurd rfl h'
      · exact ⟨h, h'⟩
    · rintro ⟨h, h'⟩; exact ⟨Or.inr (Or.inr h), h'⟩
  · intro k i h1 h2
    unfold Ct.comp
    rw [GoMap.get?_del, if_neg h2, GoMap.get?_set_of_ne _ _ h1, GoMap.get?_set_of_ne _ _ h2]
  · intro s hC hL hs i hi
    rw [Ct.comp_of_get? (p := RPoly.addLvl L c0 c' c0) (by
        rw [GoMap.get?_del, if_neg hne, GoMap.get?_set_self]),
      RPoly.val_addLvl _ hi rfl (by rw [hb', hc0b]), hval' s hC hL hs i hi, Ct.comp_of_get? hc0,
      Ct.comp_of_get? hc]

/-- PartialDecrypt dereferences nil for a non-participant. -/
theorem partialDecrypt_nil {ct : Ct C} {sk : SecretKey C} (hid : sk.id ∉ ct.value.keys) :
    Go.panics (PartialDecrypt ct sk) := by
  unfold PartialDecrypt
  cases hl : ct.Level with
  | error e => exact ⟨e, rfl⟩
  | ok L =>
    have : ct.value.deref sk.id = .error .nilDeref := by
      simp [GoMap.deref, (GoMap.get?_eq_none_iff _ _).mpr hid]
    exact ⟨.nilDeref, by simp only [Go.ok_bind, this, Go.error_bind]⟩

end MK
