import Verif.HeapKsSim

/-!
# Encryption on pointers

`Encrypt` (mkrlwe/encryptor.go 55-118) statement by statement on the memory of `Verif.Heap`, and the
exported functions of mkckks/encryptor.go that create ciphertexts.  The scratch polynomial of the
encryptor and the plaintext are values: they are allocated by `NewEncryptor` and by the client and
are not components of a ciphertext.
-/

noncomputable section

namespace MK

open Mem

variable {C : Ctx} {Msg : Type}

namespace Mem

/-- Lines 74-111 of `Encrypt` (mkrlwe/encryptor.go).  Returns the scratch polynomial. -/
def encAdd (a : ℕ) (id : String) (levelQ : ℕ) (ciphertextNTT : Bool) (e0 e1 : Nega C.N ℤ)
    (plaintext pool : RQ C) : HM C (RQ C) :=
  if ciphertextNTT then do
    -- lines 77-79
    let pool := pool.readLvl levelQ e1
    let pool := pool.nttLvl C.nttQ levelQ pool
    let c1 ← load a id
    store a id (RPoly.addLvl levelQ c1 pool c1)
    -- line 82
    let pool := pool.readLvl levelQ e0
    if !plaintext.isNTT then
      let pool := RPoly.addLvl levelQ pool plaintext pool
      let pool := pool.nttLvl C.nttQ levelQ pool
      let c0 ← load a "0"
      store a "0" (RPoly.addLvl levelQ c0 pool c0)
      return pool
    else
      let pool := pool.nttLvl C.nttQ levelQ pool
      let c0 ← load a "0"
      store a "0" (RPoly.addLvl levelQ c0 pool c0)
      let c0 ← load a "0"
      store a "0" (RPoly.addLvl levelQ c0 plaintext c0)
      return pool
  else do
    -- lines 96-97
    let c0 ← load a "0"
    store a "0" (c0.invNttLvl C.nttQ levelQ c0)
    let c1 ← load a id
    store a id (c1.invNttLvl C.nttQ levelQ c1)
    -- lines 100, 103
    let l ← level a
    let c0 ← load a "0"
    store a "0" (c0.readAndAddLvl l e0)
    let l ← level a
    let c1 ← load a id
    store a id (c1.readAndAddLvl l e1)
    if !plaintext.isNTT then
      let c0 ← load a "0"
      store a "0" (RPoly.addLvl levelQ c0 plaintext c0)
      return pool
    else
      let pool := plaintext.invNttLvl C.nttQ levelQ pool
      let c0 ← load a "0"
      store a "0" (RPoly.addLvl levelQ c0 pool c0)
      return pool

/-- `Encrypt` (mkrlwe/encryptor.go 55-118). -/
def encrypt (pool : RQ C) (u e0 e1 : Nega C.N ℤ) (plaintext : RQ C) (pk : PublicKey C) (a : ℕ) :
    HM C (RQ C) := do
  let id := pk.id
  let ctLevel ← level a
  let levelQ := min plaintext.level ctLevel
  let c0 ← load a "0"
  let ciphertextNTT := c0.isNTT
  -- lines 65-67
  let pool := pool.readLvl levelQ u
  let pool := pool.nttLvl C.nttQ levelQ pool
  let pool := pool.mformLvl levelQ pool
  -- lines 70, 72
  store a "0" (RPoly.mulMontLvl levelQ pool pk.value0.Q c0)
  let c1 ← load a id
  store a id (RPoly.mulMontLvl levelQ pool pk.value1.Q c1)
  let pool ← encAdd a id levelQ ciphertextNTT e0 e1 plaintext pool
  -- lines 113-116
  let c0 ← load a "0"
  let c1 ← load a id
  store a id { c1 with isNTT := c0.isNTT }
  let c0 ← load a "0"
  store a "0" (c0.truncate (levelQ + 1))
  let c1 ← load a id
  store a id (c1.truncate (levelQ + 1))
  return pool

/-- `EncryptPtxt` (mkckks/encryptor.go 33-36).  The composite literal
`&mkrlwe.Ciphertext{Value: ctOut.Value}` has the same map as `ctOut`. -/
def EncryptPtxt (enc : CEnc C) (rnd : EncRand C) (pt : RQ C) (ptScale : ℚ) (pk : PublicKey C)
    (y : ℕ) : HM C (CEnc C) := do
  let b ← ctOf y
  let pool ← encrypt enc.poolQ rnd.u rnd.e0 rnd.e1 pt pk b
  setScale y ptScale
  return { enc with poolQ := pool }

/-- `EncryptMsg` (mkckks/encryptor.go 42-45). -/
def EncryptMsg (E : Encoder C Msg) (enc : CEnc C) (rnd : EncRand C) (msg : Msg) (pk : PublicKey C)
    (y : ℕ) : HM C (CEnc C) :=
  let enc := { enc with ptxt := E.Encode enc.ptxt enc.scale msg }
  EncryptPtxt enc rnd enc.ptxt enc.scale pk y

/-- `EncryptMsgNew` (mkckks/encryptor.go 51-58). -/
def EncryptMsgNew (E : Encoder C Msg) (prm : CPar C) (enc : CEnc C) (rnd : EncRand C) (msg : Msg)
    (pk : PublicKey C) : HM C (CEnc C × ℕ) := do
  let idset ← lift (IDSet.new.Add pk.id)
  let y ← newCCiphertext C.lq (GoMap.keys idset) prm.scale
  let enc ← EncryptMsg E enc rnd msg pk y
  return (enc, y)

/-- `EncryptMsgNewExpand` (mkckks/encryptor.go 60-65). -/
def EncryptMsgNewExpand (E : Encoder C Msg) (prm : CPar C) (enc : CEnc C) (rnd : EncRand C)
    (msg : Msg) (pk : PublicKey C) (o : List String) : HM C (CEnc C × ℕ) := do
  let y ← newCCiphertext C.lq o prm.scale
  let enc ← EncryptMsg E enc rnd msg pk y
  return (enc, y)

end Mem

/-! ## Two components of one object -/

theorem GoMap.set_comm {K V : Type} [DecidableEq K] {m : GoMap K V} {j k : K} (hj : m.has j = true)
    (hk : m.has k = true) (hjk : j ≠ k) (x y : V) : (m.set j x).set k y = (m.set k y).set j x := by
  have h1 : (m.set j x).has k = true := by
    rw [GoMap.has_iff, GoMap.mem_keys_set]; exact Or.inr ((GoMap.has_iff _ _).mp hk)
  have h2 : (m.set k y).has j = true := by
    rw [GoMap.has_iff, GoMap.mem_keys_set]; exact Or.inr ((GoMap.has_iff _ _).mp hj)
  unfold GoMap.set at h1 h2 ⊢
  rw [if_pos hj, if_pos hk] at *
  rw [if_pos h1, if_pos h2]
  simp only [List.map_map]
  congr 1
  refine List.map_congr_left fun e _ => ?_
  simp only [Function.comp]
  by_cases e1 : e.1 = j
  · have : e.1 ≠ k := fun h => hjk (e1.symm.trans h)
    simp [e1, hjk]
  · by_cases e2 : e.1 = k
    · simp [e2, Ne.symm hjk]
    · simp [e1, e2]

/-- The object `a`, with components `"0"` and `id` holding `x` and `y`. -/
def St2 (a : ℕ) (h0 : Heap C) (id : String) (h : Heap C) (x y : RQ C) : Prop :=
  Upd a h0 h ⟨((h0.viewCt a).value.set "0" x).set id y⟩

section St2

variable {a : ℕ} {h0 h : Heap C} {id : String} {x y : RQ C} {γ δ : Type}

theorem St2.getId (s : St2 a h0 id h x y) {k : RQ C → HM C γ} {f : Go δ} {R : Heap C → γ → δ → Prop}
    (hk : Sim h (k y) f R) : Sim h (load a id >>= k) f R :=
  Sim.load_val s.1 (GoMap.get?_set_self _ _ _) hk

theorem St2.zero (h1 : id ≠ "0") (s : St2 a h0 id h x y) {k : RQ C → HM C γ} {f : Go δ}
    {R : Heap C → γ → δ → Prop} (hk : Sim h (k x) f R) : Sim h (load a "0" >>= k) f R :=
  Sim.load_val s.1 (by
    rw [GoMap.get?_set_of_ne _ _ (Ne.symm h1), GoMap.get?_set_self]) hk

theorem St2.level (h1 : id ≠ "0") (s : St2 a h0 id h x y) {k : ℕ → HM C γ} {f : Go δ}
    {R : Heap C → γ → δ → Prop} (hk : Sim h (k x.level) f R) : Sim h (level a >>= k) f R := by
  unfold Mem.level
  rw [bind_assoc]
  refine s.zero h1 ?_
  rwa [pure_bind]

theorem St2.setId (ho : h0.Own a) (s : St2 a h0 id h x y) {v : RQ C} {k : Unit → HM C γ} {f : Go δ}
    {R : Heap C → γ → δ → Prop} (hk : ∀ h', St2 a h0 id h' x v → Sim h' (k ()) f R) :
    Sim h (store a id v >>= k) f R :=
  Sim.store_upd s ho (GoMap.get?_set_self _ _ _) fun h' u => hk h' (by
    simp only [GoMap.set_set] at u; exact u)

theorem St2.setZero (ho : h0.Own a) (h1 : id ≠ "0") (k1 : id ∈ (h0.ct a).keys) (s : St2 a h0 id h x y) {v : RQ C}
    {k : Unit → HM C γ} {f : Go δ} {R : Heap C → γ → δ → Prop}
    (hk : ∀ h', St2 a h0 id h' v y → Sim h' (k ()) f R) : Sim h (store a "0" v >>= k) f R :=
  Sim.store_upd s ho (by
    rw [GoMap.get?_set_of_ne _ _ (Ne.symm h1), GoMap.get?_set_self]) fun h' u => hk h' (by
    unfold St2
    rw [← Heap.viewCt_keys, ← GoMap.has_iff] at k1
    have e1 : ((h0.viewCt a).value.set "0" x).has id = true := by
      rw [GoMap.has_iff, GoMap.mem_keys_set]; exact Or.inr ((GoMap.has_iff _ _).mp k1)
    have e0 : ((h0.viewCt a).value.set "0" x).has "0" = true := by
      rw [GoMap.has_iff, GoMap.mem_keys_set]; exact Or.inl rfl
    have := GoMap.set_comm e0 e1 (Ne.symm h1) v y
    rw [GoMap.set_set] at this
    rw [this]; exact u)

end St2

/-! ## Encryption -/

variable {h : Heap C}

theorem encAdd_sim {a : ℕ} {h0 : Heap C} {id : String} {x y : RQ C} (ho : h0.Own a) (h1 : id ≠ "0")
    (k1 : id ∈ (h0.ct a).keys) (s : St2 a h0 id h x y)
    (levelQ : ℕ) (b : Bool) (e0 e1 : Nega C.N ℤ) (pt pool : RQ C) :
    Sim h (Mem.encAdd a id levelQ b e0 e1 pt pool)
      (.ok (encryptAdd levelQ x.level b e0 e1 pt pool x y))
      fun h' p r => p = r.1 ∧ St2 a h0 id h' r.2.1 r.2.2 := by
  unfold Mem.encAdd encryptAdd
  split
  · dsimp only
    refine s.getId (St2.setId ho s fun h2 s2 => ?_)
    split
    · refine s2.zero h1 (s2.setZero ho h1 k1 fun h3 s3 => ?_)
      exact Sim.pure ⟨rfl, s3⟩
    · refine s2.zero h1 (s2.setZero ho h1 k1 fun h3 s3 => ?_)
      refine s3.zero h1 (s3.setZero ho h1 k1 fun h4 s4 => ?_)
      exact Sim.pure ⟨rfl, s4⟩
  · dsimp only
    refine s.zero h1 (s.setZero ho h1 k1 fun h2 s2 => ?_)
    refine s2.getId (s2.setId ho fun h3 s3 => ?_)
    refine s3.level h1 (s3.zero h1 (s3.setZero ho h1 k1 fun h4 s4 => ?_))
    refine s4.level h1 (s4.getId (s4.setId ho fun h5 s5 => ?_))
    split
    · refine s5.zero h1 (s5.setZero ho h1 k1 fun h6 s6 => ?_)
      exact Sim.pure ⟨rfl, s6⟩
    · refine s5.zero h1 (s5.setZero ho h1 k1 fun h6 s6 => ?_)
      exact Sim.pure ⟨rfl, s6⟩

theorem encrypt_sim {a : ℕ} (ho : h.Own a) (pool : RQ C) (u e0 e1 : Nega C.N ℤ) (pt : RQ C)
    {pk : PublicKey C} (hid : pk.id ≠ "0") :
    Sim h (Mem.encrypt pool u e0 e1 pt pk a) (MK.Encrypt pool u e0 e1 pt pk (h.viewCt a))
      (RelS a h) := by
  unfold Mem.encrypt MK.Encrypt
  dsimp only
  refine Sim.level_bind rfl fun l hl => Sim.load_bind rfl fun c0 hc0 => ?_
  have el : l = c0.level := by
    unfold Ct.Level at hl
    rw [GoMap.deref_of_get? hc0] at hl
    exact (Except.ok.inj hl).symm
  subst el
  refine Sim.store_upd (Upd.refl a h) ho hc0 fun h1 u1 => ?_
  refine Sim.load_bind u1.1 fun c1 hc1 => ?_
  refine Sim.store_upd u1 ho hc1 fun h2 u2 => ?_
  have k1 : pk.id ∈ (h.ct a).keys := by
    have := GoMap.mem_keys_of_get? hc1
    rw [GoMap.mem_keys_set] at this
    rw [← Heap.viewCt_keys]
    exact this.resolve_left hid
  have s2 : St2 a h pk.id h2 _ _ := u2
  refine Sim.bind (f := .ok _) (k' := fun r : RQ C × RQ C × RQ C => .ok (r.1,
    (⟨((((h.viewCt a).value.set "0" _).set "0" (r.2.1.truncate (min pt.level c0.level + 1))).set pk.id
      (({ r.2.2 with isNTT := r.2.1.isNTT } : RQ C).truncate (min pt.level c0.level + 1)))⟩ : Ct C)))
    (encAdd_sim ho hid k1 s2 _ _ e0 e1 pt _) ?_
  rintro h3 _ ⟨p, x, y⟩ ⟨rfl, s3⟩
  dsimp only at s3 ⊢
  refine s3.zero hid (s3.getId (s3.setId ho fun h4 s4 => ?_))
  refine s4.zero hid (s4.setZero ho hid k1 fun h5 s5 => ?_)
  refine s5.getId (s5.setId ho fun h6 s6 => ?_)
  refine Sim.pure ⟨rfl, ?_⟩
  rw [GoMap.set_set]
  exact s6

theorem EncryptPtxt_sim {y : ℕ} (ho : h.Own (h.cct y).1) (enc : CEnc C) (rnd : EncRand C) (pt : RQ C)
    (ptScale : ℚ) {pk : PublicKey C} (hid : pk.id ≠ "0") :
    Sim h (Mem.EncryptPtxt enc rnd pt ptScale pk y) (enc.EncryptPtxt rnd pt ptScale pk (h.view y))
      fun h' e r => e = r.1 ∧ h'.view y = r.2 ∧ Wr {y} (h.polys (h.cct y).1) h h' := by
  unfold Mem.EncryptPtxt CEnc.EncryptPtxt
  refine Sim.ctOf_bind ?_
  refine Sim.bind (encrypt_sim ho enc.poolQ rnd.u rnd.e0 rnd.e1 pt hid) ?_
  rintro h' _ ⟨p, c'⟩ ⟨rfl, hu⟩
  dsimp only at hu ⊢
  have e : ∀ z, h'.cct z = h.cct z := fun z => hu.2.cct z (by simp)
  refine Sim.setScale_bind (Sim.pure ⟨rfl, ?_, ?_⟩)
  · simp only [Heap.view, Function.update_self, e]
    congr 1
    exact hu.1
  · refine ⟨hu.2.next, hu.2.ct, fun z hz => ?_, fun z => ?_, hu.2.poly⟩
    · exact (Function.update_of_ne (by simpa using hz) _ _).trans (e z)
    · by_cases hz : z = y
      · subst hz; simp only [Function.update_self, e]
      · simp only [Function.update_of_ne hz, e]

/-- A new ciphertext stays one when it is written. -/
theorem NewC.write {h' h'' : Heap C} {y : ℕ} {c r : CCt C} (n : NewC h h' y c)
    (w : Wr {y} (h'.polys (h'.cct y).1) h' h'') (hv : h''.view y = r) : NewC h h'' y r := by
  refine ⟨hv, n.fresh, by rw [w.next]; exact n.lt, by rw [w.cct1]; exact n.ctFresh, ?_, ?_, ?_, ?_⟩
  · rw [w.cct1]; exact w.valid n.valid
  · rw [w.cct1]; exact w.own n.own
  · rw [w.cct1, w.polys]; exact n.polys
  · refine n.fr.trans w.fr (by simp) (fun x hx hm => ?_) fun x hx hm => ?_
    · rw [Set.mem_singleton_iff] at hm
      exact absurd n.fresh (not_le.mpr (hm ▸ hx))
    · exact absurd (n.polys x hm) (not_le.mpr hx)

theorem EncryptMsgNewExpand_sim (E : Encoder C Msg) (prm : CPar C) (enc : CEnc C) (rnd : EncRand C)
    (msg : Msg) {pk : PublicKey C} (hid : pk.id ≠ "0") (o : List String) :
    Sim h (Mem.EncryptMsgNewExpand E prm enc rnd msg pk o)
      (enc.EncryptMsgNewExpand E prm rnd msg pk o)
      fun h' t r => t.1 = r.1 ∧ NewC h h' t.2 r.2 := by
  unfold Mem.EncryptMsgNewExpand CEnc.EncryptMsgNewExpand Mem.EncryptMsg CEnc.EncryptMsg
  refine Sim.bind (f := .ok (CCt.new C.lq o prm.scale)) (k' := fun out =>
    ({ enc with ptxt := E.Encode enc.ptxt enc.scale msg } : CEnc C).EncryptPtxt rnd
      (E.Encode enc.ptxt enc.scale msg) enc.scale pk out)
    (newCCiphertext_sim h C.lq o prm.scale) ?_
  intro h1 y c n
  have es := EncryptPtxt_sim n.own { enc with ptxt := E.Encode enc.ptxt enc.scale msg } rnd
    (E.Encode enc.ptxt enc.scale msg) enc.scale hid
  rw [n.view] at es
  have fin := Sim.bind es (k := fun e => (pure (e, y) : HM C (CEnc C × ℕ)))
    (k' := fun r => .ok r) (R := fun h' t r => t.1 = r.1 ∧ NewC h h' t.2 r.2)
    fun h2 _ r ⟨a, b, w⟩ => Sim.pure ⟨a, n.write w b⟩
  rwa [show (fun r => (.ok r : Go (CEnc C × CCt C))) = pure from rfl, bind_pure] at fin

theorem EncryptMsgNew_sim (E : Encoder C Msg) (prm : CPar C) (enc : CEnc C) (rnd : EncRand C)
    (msg : Msg) (pk : PublicKey C) :
    Sim h (Mem.EncryptMsgNew E prm enc rnd msg pk) (enc.EncryptMsgNew E prm rnd msg pk)
      fun h' t r => t.1 = r.1 ∧ NewC h h' t.2 r.2 := by
  unfold Mem.EncryptMsgNew CEnc.EncryptMsgNew
  refine Sim.lift_bind fun ids hids => ?_
  have hid : pk.id ≠ "0" := by
    intro h0
    unfold IDSet.Add at hids
    rw [if_pos h0] at hids
    cases hids
  exact EncryptMsgNewExpand_sim E prm enc rnd msg hid _

end MK
