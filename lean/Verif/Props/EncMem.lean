import Verif.EncMem
import Verif.Props.KsMem
import Verif.HeapEnc

/-!
# C71: encryption and decryption on memory
-/

noncomputable section

namespace MK

open PMem

variable {C : Ctx}

/-! ## Encryption -/

/-- The memory `m`, reached from `m0`, while an encryption writes to the scratch polynomial `pool`
and to the ciphertext `out`. -/
structure ERel (pool : Ptr) (out : CtA) (m0 : PMem C) (s : RQ C × Ct C) (m : PMem C) : Prop where
  scr : m.q pool = s.1
  ct : out.read m = s.2
  next : m.next = m0.next
  frame : ∀ p : Ptr, p ≠ pool → (∀ i : String, out.get? i ≠ some p) → m.val p = m0.val p

/-- The output: a Go map with one cell per component, none of them the scratch polynomial. -/
structure EncOut (pool : Ptr) (out : CtA) : Prop where
  wf : out.WF
  inj : ∀ {i j : String} {p : Ptr}, out.get? i = some p → out.get? j = some p → i = j
  disj : ∀ {i : String} {p : Ptr}, out.get? i = some p → p ≠ pool

theorem CtA.read_wrQ {out : CtA} (hw : out.WF)
    (hi : ∀ {i j : String} {p : Ptr}, out.get? i = some p → out.get? j = some p → i = j)
    (m : PMem C) {id : String} {p : Ptr} (hp : out.get? id = some p) (f : RQ C → RQ C) :
    out.read (m.wrQ p f) = ⟨(out.read m).value.set id (f (m.q p))⟩ := by
  have hh : (out.read m).value.has id = true := by
    rw [GoMap.has_iff]
    unfold CtA.read
    rw [GoMap.keys_mapVals]
    exact GoMap.mem_keys_of_get? hp
  unfold CtA.read at hh ⊢
  congr 1
  unfold GoMap.set
  rw [if_pos hh]
  unfold GoMap.mapVals
  simp only [List.map_map]
  congr 1
  refine List.map_congr_left fun e he => ?_
  have hg := GoMap.get?_of_mem_entries hw he
  by_cases h1 : e.1 = id
  · have : e.2 = p := by rw [h1, hp] at hg; exact (Option.some.inj hg).symm
    simp [h1, this, PMem.q_wrQ_self]
  · have h2 : e.2 ≠ p := fun h2 => h1 (hi (h2 ▸ hg) hp)
    simp [h1, PMem.q_wrQ_of_ne _ _ h2]

section enc

variable {pool : Ptr} {out : CtA} {m0 m : PMem C} {pv : RQ C} {ct : Ct C}

theorem ERel.wrPool (hO : EncOut pool out) (h : ERel pool out m0 (pv, ct) m) (f : RQ C → RQ C) :
    ERel pool out m0 (f pv, ct) (m.wrQ pool f) := by
  refine ⟨?_, ?_, h.next, fun p h1 h2 => ?_⟩
  · rw [PMem.q_wrQ_self, h.scr]
  · exact (CtA.read_wr_of_not m hO.wf _ fun i r hr => hO.disj hr).trans h.ct
  · rw [PMem.val_wrQ_of_ne _ _ h1, h.frame p h1 h2]

theorem ERel.upd (hO : EncOut pool out) (h : ERel pool out m0 (pv, ct) m) (id : String)
    (f : RQ C → RQ C) :
    Runs (fun ct' m' => ERel pool out m0 (pv, ct') m') (updV ct id f) (updM out id f m) := by
  unfold updV updM
  obtain ⟨h1, rfl, h3, h4⟩ := h
  refine Runs.deref (F := fun p => m.q p) fun p hp => ?_
  refine ⟨?_, ?_, h3, fun r hr1 hr2 => ?_⟩
  · rw [PMem.q_wrQ_of_ne _ _ (hO.disj hp).symm]; exact h1
  · exact CtA.read_wrQ hO.wf hO.inj m hp f
  · rw [PMem.val_wrQ_of_ne _ _ (fun h => hr2 id (by rw [h]; exact hp)), h4 r hr1 hr2]

theorem ERel.level {σ τ : Type} {R : σ → τ → Prop} (h : ERel pool out m0 (pv, ct) m)
    {f : ℕ → Go σ} {g : ℕ → Go τ} (hk : ∀ l, Runs R (f l) (g l)) :
    Runs R (ct.Level >>= f) (out.levelM m >>= g) := by
  obtain ⟨h1, rfl, h3, h4⟩ := h
  unfold Ct.Level CtA.levelM
  rw [bind_assoc, bind_assoc]
  exact Runs.deref (F := fun p => m.q p) fun p hp => hk _

theorem ERel.deref {σ τ : Type} {R : σ → τ → Prop} (h : ERel pool out m0 (pv, ct) m) (id : String)
    {f : RQ C → Go σ} {g : Ptr → Go τ} (hk : ∀ c, Runs R (f (m.q c)) (g c)) :
    Runs R (ct.value.deref id >>= f) (out.deref id >>= g) := by
  obtain ⟨h1, rfl, h3, h4⟩ := h
  exact Runs.deref (F := fun p => m.q p) fun p hp => hk _

/-- **C71 (encryption).** `Encrypt` on memory computes what it computes on values, and changes
nothing but the scratch polynomial and the ciphertext, when plaintext and public key are not among
these. -/
theorem C71_encrypt (hO : EncOut pool out) {pt : Ptr} {pk : PkA} (u e0 e1 : Nega C.N ℤ) (m : PMem C)
    (hs : ∀ p, p = pt ∨ p = pk.value0 ∨ p = pk.value1 →
      p ≠ pool ∧ ∀ i : String, out.get? i ≠ some p) :
    Runs (ERel pool out m)
      (encryptV (m.q pool) u e0 e1 (m.q pt) (pk.read m) (out.read m))
      (EncryptM pool pt u e0 e1 pk out m) := by
  have hq : ∀ {s : RQ C × Ct C} {m' : PMem C}, ERel pool out m s m' → ∀ p,
      p = pt ∨ p = pk.value0 ∨ p = pk.value1 → m'.q p = m.q p := fun h p hp => by
    unfold PMem.q
    rw [h.frame p (hs p hp).1 (hs p hp).2]
  have h : ERel pool out m (m.q pool, out.read m) m := ⟨rfl, rfl, rfl, fun _ _ _ => rfl⟩
  unfold encryptV EncryptM
  dsimp only
  refine h.level fun ctLevel => ?_
  refine h.deref "0" fun c0 => ?_
  have h := ((h.wrPool hO fun x => x.readLvl (min (m.q pt).level ctLevel) u).wrPool hO
    fun x => x.nttLvl C.nttQ (min (m.q pt).level ctLevel) x).wrPool hO
    fun x => x.mformLvl (min (m.q pt).level ctLevel) x
  revert h
  generalize (((m.wrQ pool _).wrQ pool _).wrQ pool _ : PMem C) = m1
  generalize min (m.q pt).level ctLevel = levelQ
  generalize RPoly.mformLvl levelQ _ _ = pv
  intro h
  rw [h.scr, hq h _ (.inr (.inl rfl)), show (pk.read m).value0.Q = m.q pk.value0 from rfl]
  refine (h.upd hO "0" _).bind fun ct m2 h => ?_
  rw [h.scr, hq h _ (.inr (.inr rfl)), show (pk.read m).value1.Q = m.q pk.value1 from rfl]
  refine (h.upd hO _ _).bind fun ct m3 h => ?_
  refine Runs.bind (R := ERel pool out m) ?_ fun s m4 h => ?_
  refine Runs.ite (fun _ => ?_) fun _ => ?_
  · have h := (h.wrPool hO fun x => x.readLvl levelQ e1).wrPool hO
      fun x => x.nttLvl C.nttQ levelQ x
    rw [h.scr]
    refine (h.upd hO _ _).bind fun ct m4 h => ?_
    have h := h.wrPool hO fun x => x.readLvl levelQ e0
    rw [hq h _ (.inl rfl)]
    refine Runs.ite (fun _ => ?_) fun _ => ?_
    · have h := (h.wrPool hO fun x => RPoly.addLvl levelQ x (m.q pt) x).wrPool hO
        fun x => x.nttLvl C.nttQ levelQ x
      rw [h.scr]
      exact (h.upd hO _ _).map fun s m h => h
    · have h := h.wrPool hO fun x => x.nttLvl C.nttQ levelQ x
      rw [h.scr]
      refine (h.upd hO _ _).bind fun ct m5 h => ?_
      rw [hq h _ (.inl rfl)]
      exact (h.upd hO _ _).map fun s m h => h
  · refine (h.upd hO _ _).bind fun ct m4 h => ?_
    refine (h.upd hO _ _).bind fun ct m5 h => ?_
    refine h.level fun l => ?_
    refine (h.upd hO _ _).bind fun ct m6 h => ?_
    refine h.level fun l => ?_
    refine (h.upd hO _ _).bind fun ct m7 h => ?_
    rw [hq h _ (.inl rfl)]
    refine Runs.ite (fun _ => ?_) fun _ => ?_
    · exact (h.upd hO _ _).map fun s m h => h
    · have h := h.wrPool hO ((m.q pt).invNttLvl C.nttQ levelQ)
      rw [h.scr]
      exact (h.upd hO _ _).map fun s m h => h
  · obtain ⟨pv, ct⟩ := s
    dsimp only
    refine h.deref "0" fun c0 => ?_
    refine (h.upd hO _ _).bind fun ct m5 h => ?_
    refine (h.upd hO _ _).bind fun ct m6 h => ?_
    exact (h.upd hO _ _).map fun s m h => h

end enc

/-- A ciphertext in cells that are new since `m`. -/
structure FreshCtA (m : PMem C) (ct : CtA) (m' : PMem C) : Prop where
  wf : ct.WF
  next : m.next ≤ m'.next
  objs : ∀ (i : String) (p : Ptr), ct.get? i = some p → m.next ≤ p.o ∧ p.o < m'.next
  inj : ∀ {i j : String} {p : Ptr}, ct.get? i = some p → ct.get? j = some p → i = j

/-- The new ciphertext `s.1` holds `v.2` and the scratch polynomials hold `v.1` in the memory `s.2`,
reached from `m0`. -/
structure NRel (ed : EDA) (m0 : PMem C) (v : EDVal C × Ct C) (s : CtA × PMem C) : Prop where
  new : FreshCtA m0 s.1 s.2
  ct : s.1.read s.2 = v.2
  scr : ed.read s.2 = v.1
  frame : ∀ p : Ptr, p.o < m0.next → p ≠ ed.poolQ → p ≠ ed.ptxt → s.2.val p = m0.val p

/-- `EncryptMsgNewExpand` on values: the scratch polynomials and the new ciphertext. -/
def encMsgV (ed : EDVal C) (f : RQ C → RQ C) (u e0 e1 : Nega C.N ℤ) (pk : PublicKey C) (level : ℕ)
    (ids : List String) : Go (EDVal C × Ct C) := do
  let (pool, ct) ← encryptV ed.poolQ u e0 e1 (f ed.ptxt) pk (Ct.new level ids)
  return ({ ed with poolQ := pool, ptxt := f ed.ptxt }, ct)

/-- **C71 (encryption of messages).** `EncryptMsgNewExpand` on memory makes in new cells the
ciphertext that is computed on values; besides, only the scratch of the encryptor changes. -/
theorem C71_encMsg {ed : EDA} {pk : PkA} (f : RQ C → RQ C) (u e0 e1 : Nega C.N ℤ) (level : ℕ)
    (ids : List String) (m : PMem C) (hed : ed.base + 2 < m.next)
    (hpk : ∀ p, p = pk.value0 ∨ p = pk.value1 → p.o < m.next ∧ ¬ ed.Has p.o) :
    Runs (NRel ed m)
      (encMsgV (ed.read m) f u e0 e1 (pk.read m) level ids)
      (EncryptMsgM ed f u e0 e1 pk level ids m) := by
  obtain ⟨hn, hr⟩ := ctFromM_spec (fun _ => RPoly.new (level + 1)) ids m
  rw [ctFromV_new] at hr
  unfold encMsgV EncryptMsgM newCtM
  generalize ctFromM (fun _ => RPoly.new (level + 1)) ids m = s at hn hr
  obtain ⟨out, m1⟩ := s
  dsimp only at hn hr ⊢
  have hne : ∀ (i : String) (p : Ptr), out.get? i = some p → ed.base + 2 < p.o := fun i p hp =>
    hed.trans_le (hn.objs i p hp).1
  set m2 := m1.wrQ ed.ptxt f with hm2
  have hv2 : ∀ p : Ptr, p ≠ ed.ptxt → m2.val p = m1.val p := fun p hp => PMem.val_wrQ_of_ne _ _ hp
  have hO : EncOut ed.poolQ out := ⟨hn.wf, hn.inj, fun {i p} hp e => by
    have := hne i p hp
    rw [e] at this
    have : ed.base + 2 < ed.base := this
    omega⟩
  have h := C71_encrypt hO (pt := ed.ptxt) (pk := pk) u e0 e1 m2 (by
    rintro p (rfl | hp)
    · refine ⟨ptr_ne (Nat.succ_ne_self _), fun i hi => ?_⟩
      have := hne i _ hi
      have : ed.base + 2 < ed.base + 1 := this
      omega
    · obtain ⟨h1, h2⟩ := hpk p hp
      refine ⟨fun e => h2 (e ▸ ⟨le_rfl, by simp [EDA.poolQ]⟩), fun i hi => ?_⟩
      have := (hn.objs i _ hi).1
      omega)
  have hb0 : ed.poolQ.o < m.next := by show ed.base < _; omega
  have hb1 : ed.ptxt.o < m.next := by show ed.base + 1 < _; omega
  have e0' : m2.q ed.poolQ = m.q ed.poolQ := by
    unfold PMem.q
    rw [hv2 _ (ptr_ne (Nat.succ_ne_self _).symm), hn.old _ hb0]
  have e1' : m2.q ed.ptxt = f (m.q ed.ptxt) := by
    rw [hm2, PMem.q_wrQ_self]
    unfold PMem.q
    rw [hn.old _ hb1]
  have e2' : pk.read m2 = pk.read m := by
    have : ∀ p, p = pk.value0 ∨ p = pk.value1 → m2.val p = m.val p := fun p hp => by
      obtain ⟨h1, h2⟩ := hpk p hp
      rw [hv2 p (fun e => h2 (e ▸ ⟨Nat.le_succ _, by simp [EDA.ptxt]⟩)), hn.old _ h1]
    unfold PkA.read
    rw [this _ (.inl rfl), this _ (.inr rfl)]
  have e3' : out.read m2 = Ct.new level ids := by
    rw [← hr]
    exact CtA.read_wr_of_not m1 hn.wf _ fun i p hp e => by
      have := hne i p hp
      rw [e] at this
      have : ed.base + 2 < ed.base + 1 := this
      omega
  rw [e0', e1', e2', e3'] at h
  refine h.bind fun v m3 hv => ?_
  obtain ⟨pool, ct⟩ := v
  obtain ⟨a1, a2, a3, a4⟩ := hv
  dsimp only at a1 a2 ⊢
  have hfr : ∀ p : Ptr, p.o < m.next → p ≠ ed.poolQ → p ≠ ed.ptxt → m3.val p = m.val p :=
    fun p h1 h2 h3 => by
      rw [a4 p h2 fun i hi => by have := (hn.objs i p hi).1; omega, hv2 p h3, hn.old p h1]
  refine ⟨⟨hn.wf, ?_, fun i p hp => ?_, hn.inj⟩, a2, ?_, hfr⟩
  · show m.next ≤ m3.next
    rw [a3]; exact hn.next
  · show _ ∧ p.o < m3.next
    rw [a3]; exact hn.objs i p hp
  · unfold EDA.read
    dsimp only
    congr 1
    · have := a4 ed.ptxt (ptr_ne (Nat.succ_ne_self _)) fun i hi => by
        have := hne i _ hi
        have : ed.base + 2 < ed.base + 1 := this
        omega
      rw [← e1']
      unfold PMem.q
      rw [this]
    · unfold PMem.q
      rw [hfr ed.dpool hed (ptr_ne (by show ed.base + 2 ≠ ed.base; omega))
        (ptr_ne (by show ed.base + 2 ≠ ed.base + 1; omega))]

/-! ### The two value models of `Encrypt` -/

theorem updV_zero {g : GoMap String (RQ C)} {id : String} (h : id ≠ "0") (a b : RQ C)
    (h0 : g.has "0" = true) (h1 : g.has id = true) (f : RQ C → RQ C) :
    updV ⟨(g.set "0" a).set id b⟩ "0" f = .ok ⟨(g.set "0" (f a)).set id b⟩ := by
  unfold updV
  dsimp only
  rw [GoMap.deref_of_get? (show ((g.set "0" a).set id b).get? "0" = some a by
    rw [GoMap.get?_set_of_ne _ _ (Ne.symm h), GoMap.get?_set_self])]
  rw [GoMap.set_comm h0 h1 (Ne.symm h) a b]
  show Except.ok _ = _
  rw [GoMap.set_set, GoMap.set_comm h0 h1 (Ne.symm h)]

theorem updV_id {g : GoMap String (RQ C)} {id : String} (a b : RQ C) (f : RQ C → RQ C) :
    updV ⟨(g.set "0" a).set id b⟩ id f = .ok ⟨(g.set "0" a).set id (f b)⟩ := by
  unfold updV
  dsimp only
  rw [GoMap.deref_of_get? (GoMap.get?_set_self _ _ _)]
  show Except.ok _ = _
  rw [GoMap.set_set]

theorem deref_zero {g : GoMap String (RQ C)} {id : String} (h : id ≠ "0") (a b : RQ C) :
    ((g.set "0" a).set id b).deref "0" = .ok a :=
  GoMap.deref_of_get? (by rw [GoMap.get?_set_of_ne _ _ (Ne.symm h), GoMap.get?_set_self])

/-- The two models of `Encrypt` on values agree unless the public key has the id `"0"`. -/
theorem encryptV_eq {pk : PublicKey C} (h : pk.id ≠ "0") (pool : RQ C) (u e0 e1 : Nega C.N ℤ)
    (pt : RQ C) (ct : Ct C) : encryptV pool u e0 e1 pt pk ct = Encrypt pool u e0 e1 pt pk ct := by
  obtain ⟨g⟩ := ct
  unfold encryptV Encrypt Ct.Level
  dsimp only
  cases h0 : g.get? "0" with
  | none => simp [GoMap.deref, h0]
  | some c0 =>
    have e0' : g.has "0" = true := by rw [GoMap.has_iff]; exact GoMap.mem_keys_of_get? h0
    simp only [GoMap.deref_of_get? h0, Go.ok_bind, pure_bind]
    generalize min pt.level c0.level = l at *
    generalize RPoly.mformLvl l _ _ = pv
    have u0 : ∀ f, updV (⟨g⟩ : Ct C) "0" f = .ok ⟨g.set "0" (f c0)⟩ := fun f => by
      unfold updV
      rw [GoMap.deref_of_get? h0]; rfl
    rw [u0, Go.ok_bind]
    have hl : (RPoly.mulMontLvl l pv pk.value0.Q c0).level = RPoly.level c0 := rfl
    generalize RPoly.mulMontLvl l pv pk.value0.Q c0 = a at *
    have hg : (g.set "0" a).get? pk.id = g.get? pk.id := GoMap.get?_set_of_ne _ _ h
    cases h1 : g.get? pk.id with
    | none =>
      unfold updV
      simp [GoMap.deref, hg, h1]
    | some c1 =>
      have e1' : g.has pk.id = true := by rw [GoMap.has_iff]; exact GoMap.mem_keys_of_get? h1
      have u1 : ∀ f, updV (⟨g.set "0" a⟩ : Ct C) pk.id f
          = .ok ⟨(g.set "0" a).set pk.id (f c1)⟩ := fun f => by
        unfold updV
        rw [GoMap.deref_of_get? (hg.trans h1)]; rfl
      rw [u1, Go.ok_bind, GoMap.deref_of_get? (hg.trans h1), Go.ok_bind]
      generalize RPoly.mulMontLvl l pv pk.value1.Q c1 = b
      have L1 : (RPoly.invNttLvl C.nttQ l a a).level = RPoly.level c0 := hl
      have L2 : (RPoly.readAndAddLvl (RPoly.level c0) e0 (RPoly.invNttLvl C.nttQ l a a)).level
          = RPoly.level c0 := hl
      unfold encryptAdd
      simp only [updV_zero h _ _ e0' e1', updV_id, deref_zero h, Go.ok_bind, pure_bind,
        GoMap.set_set]
      cases c0.isNTT <;> cases pt.isNTT <;>
        simp only [Bool.not_true, Bool.not_false, if_true, if_false, Bool.false_eq_true, pure_bind,
          Go.ok_bind, L1, L2, updV_zero h _ _ e0' e1', updV_id, deref_zero h]

/-! ## Decryption -/

/-- The ciphertext `s.1`, in cells that are new since `m0`, holds `ct` in the memory `s.2`. -/
def CRel (m0 : PMem C) (ct : Ct C) (s : CtA × PMem C) : Prop :=
  NewCtA m0 s.1 s.2 ∧ s.1.read s.2 = ct

theorem copyLoop_eq (el : Ct C) (o : List String) (g : GoMap String (RQ C)) :
    (do let g ← el.copyLoop g o; return (⟨g⟩ : Ct C)) =
      forEach o (fun id (ct : Ct C) => do
        let p ← el.value.deref id
        return ⟨ct.value.set id p⟩) ⟨g⟩ := by
  induction o generalizing g with
  | nil => rfl
  | cons id o ih =>
    unfold Ct.copyLoop forEach
    cases h : el.value.deref id with
    | error e => rfl
    | ok p => exact ih _

/-- **C71 (copies).** `CopyNew` on memory makes a ciphertext in new cells with the same contents. -/
theorem C71_copy {ct : CtA} (o : List String) (m : PMem C)
    (hct : ∀ (i : String) (p : Ptr), ct.get? i = some p → p.o < m.next) :
    Runs (CRel m) ((ct.read m).CopyNew o) (ct.CopyNewM o m) := by
  unfold Ct.CopyNew CtA.CopyNewM
  refine Runs.deref (F := fun p => m.q p) fun p hp => ?_
  rw [copyLoop_eq]
  refine Runs.forEach o (fun id cv s h => ?_) ?_
  · obtain ⟨tmp, m1⟩ := s
    obtain ⟨h1, rfl⟩ := h
    refine Runs.deref (F := fun p => m.q p) fun p hp => ?_
    have hq : m.q p = m1.q p := by
      unfold PMem.q
      rw [h1.old p (hct id p hp)]
    unfold copyCellM
    rw [hq]
    exact h1.addCell id _
  · exact (NewCtA.empty m).addCell "0" _

theorem GoMap.mapVals_del {K V W : Type} [DecidableEq K] (m : GoMap K V) (f : K → V → W) (k : K) :
    (m.del k).mapVals f = (m.mapVals f).del k := by
  unfold GoMap.del GoMap.mapVals
  simp only [List.filter_map]
  rfl

theorem NewCtA.wrQ {m0 m : PMem C} {ct : CtA} (h : NewCtA m0 ct m) {id : String} {p : Ptr}
    (hp : ct.get? id = some p) (f : RQ C → RQ C) : NewCtA m0 ct (m.wrQ p f) :=
  ⟨h.wf, h.next, h.objs, h.inj, fun r hr => by
    rw [PMem.val_wrQ_of_ne _ _ (ptr_ne (by have := (h.objs id p hp).1; omega)), h.old r hr]⟩

theorem NewCtA.del {m0 m : PMem C} {ct : CtA} (h : NewCtA m0 ct m) (id : String) :
    NewCtA m0 (ct.del id) m := by
  have hg : ∀ {i : String} {p : Ptr}, (ct.del id).get? i = some p → ct.get? i = some p := by
    intro i p hp
    rw [GoMap.get?_del] at hp
    split at hp
    · cases hp
    · exact hp
  exact ⟨h.wf.del _, h.next, fun i p hp => h.objs i p (hg hp), fun hi hj => h.inj (hg hi) (hg hj),
    h.old⟩

/-- **C71 (partial decryption).** On a ciphertext in new cells. -/
theorem C71_partial {m0 : PMem C} {ct : Ct C} {s : CtA × PMem C} (h : CRel m0 ct s) {sk : SkA}
    (hsk : sk.value.o < m0.next) :
    Runs (CRel m0) (PartialDecrypt ct (sk.read m0)) (PartialDecryptM s.1 sk s.2) := by
  obtain ⟨tmp, m⟩ := s
  obtain ⟨h, rfl⟩ := h
  dsimp only at h ⊢
  have hq : ∀ {m' : PMem C}, NewCtA m0 tmp m' → m'.q sk.value = m0.q sk.value := fun h => by
    unfold PMem.q
    rw [h.old _ hsk]
  unfold PartialDecrypt PartialDecryptM Ct.Level CtA.levelM
  dsimp only
  rw [bind_assoc, bind_assoc]
  refine Runs.deref (F := fun p => m.q p) fun c0 hc0 => ?_
  show Runs _ (GoMap.deref _ _ >>= _) (GoMap.deref _ _ >>= _)
  refine Runs.deref (F := fun p => m.q p) fun c hc => ?_
  rw [show (sk.read m0).value.Q = m0.q sk.value from rfl, show (sk.read m0).id = sk.id from rfl]
  replace hc : GoMap.get? tmp sk.id = some c := hc
  generalize (m.q c0).level = l
  -- the three statements on the component
  have step : ∀ {m1 : PMem C}, NewCtA m0 tmp m1 →
      (∀ f : RQ C → RQ C, tmp.read (m1.wrQ c f) = ⟨(tmp.read m).value.set sk.id (f (m1.q c))⟩) →
      ∀ f : RQ C → RQ C, NewCtA m0 tmp (m1.wrQ c f) ∧ (m1.wrQ c f).q c = f (m1.q c) ∧
        tmp.read (m1.wrQ c f) = ⟨(tmp.read m).value.set sk.id (f (m1.q c))⟩ ∧
        ∀ g : RQ C → RQ C, tmp.read ((m1.wrQ c f).wrQ c g) =
          ⟨(tmp.read m).value.set sk.id (g ((m1.wrQ c f).q c))⟩ := by
    intro m1 h1 h3 f
    refine ⟨h1.wrQ hc f, PMem.q_wrQ_self _ _ _, h3 f, fun g => ?_⟩
    rw [CtA.read_wrQ h1.wf h1.inj _ hc, h3, GoMap.set_set]
  obtain ⟨m1, hm1, h1, e1, r1⟩ : ∃ m1, m1 = (if !(m.q c).isNTT then
      m.wrQ c fun x => x.nttLvl C.nttQ l x else m) ∧ NewCtA m0 tmp m1 ∧
      m1.q c = (if !(m.q c).isNTT then (m.q c).nttLvl C.nttQ l (m.q c) else m.q c) ∧
      ∀ f : RQ C → RQ C, tmp.read (m1.wrQ c f) = ⟨(tmp.read m).value.set sk.id (f (m1.q c))⟩ := by
    refine ⟨_, rfl, ?_⟩
    have r0 : ∀ f : RQ C → RQ C, tmp.read (m.wrQ c f) =
        ⟨(tmp.read m).value.set sk.id (f (m.q c))⟩ := fun f => CtA.read_wrQ h.wf h.inj m hc f
    split
    · obtain ⟨a1, a2, -, a4⟩ := step h r0 fun x => x.nttLvl C.nttQ l x
      exact ⟨a1, a2, a4⟩
    · exact ⟨h, rfl, r0⟩
  rw [← hm1, ← e1, ← hq h1]
  obtain ⟨h2, e2, s2, r2⟩ := step h1 r1 fun x => RPoly.mulMontLvl l x (m1.q sk.value) x
  rw [← e2]
  generalize (m1.wrQ c fun x => RPoly.mulMontLvl l x (m1.q sk.value) x) = m2 at *
  obtain ⟨m3, hm3, h3, e3, r3⟩ : ∃ m3, m3 = (if !(m2.q c).isNTT then
      m2.wrQ c fun x => x.invNttLvl C.nttQ l x else m2) ∧ NewCtA m0 tmp m3 ∧
      m3.q c = (if !(m2.q c).isNTT then (m2.q c).invNttLvl C.nttQ l (m2.q c) else m2.q c) ∧
      tmp.read m3 = ⟨(tmp.read m).value.set sk.id (m3.q c)⟩ := by
    refine ⟨_, rfl, ?_⟩
    split
    · obtain ⟨a1, a2, a3, -⟩ := step h2 r2 fun x => x.invNttLvl C.nttQ l x
      exact ⟨a1, a2, by rw [a3, a2]⟩
    · exact ⟨h2, rfl, by rw [s2, e2]⟩
  rw [← hm3, ← e3]
  rw [show (GoMap.set (tmp.read m).value sk.id (m3.q c)) = (tmp.read m3).value by rw [r3]]
  refine Runs.deref (F := fun p => m3.q p) fun c0 hc0 => ?_
  rw [show (tmp.read m3).value.deref sk.id = .ok (m3.q c) by rw [r3]; exact GoMap.deref_of_get? (GoMap.get?_set_self _ _ _)]
  refine ⟨(h3.wrQ hc0 _).del _, ?_⟩
  show CtA.read (GoMap.del tmp sk.id) _ = _
  have := CtA.read_wrQ h3.wf h3.inj m3 hc0 fun x => RPoly.addLvl l x (m3.q c) x
  unfold CtA.read at this ⊢
  rw [GoMap.mapVals_del]
  simp only [Ct.mk.injEq] at this
  rw [this]

/-- The secret keys of a set as values. -/
def readSks (s : KeySet SkA) (m : PMem C) : KeySet (SecretKey C) :=
  ⟨s.value.mapVals fun _ k => k.read m⟩

theorem decryptLoop_eq (idset : IDSet) (skSet : KeySet (SecretKey C)) (o : List String) (ct : Ct C) :
    decryptLoop idset skSet ct o = forEach o (fun k ct => do
      let sk ← skSet.value.deref k
      if idset.Has sk.id then PartialDecrypt ct sk else return ct) ct := by
  induction o generalizing ct with
  | nil => rfl
  | cons k o ih =>
    unfold decryptLoop forEach
    cases h : skSet.value.deref k with
    | error e => rfl
    | ok sk =>
      simp only [Go.ok_bind, ih]
      split
      · rfl
      · rfl

theorem runs_decryptLoop (m0 : PMem C) (idset : IDSet) {skSet : KeySet SkA}
    (hsk : ∀ (k : String) (sk : SkA), skSet.value.get? k = some sk → sk.value.o < m0.next)
    (o : List String) {ct : Ct C} {s : CtA × PMem C} (h : CRel m0 ct s) :
    Runs (CRel m0) (decryptLoop idset (readSks skSet m0) ct o)
      (decryptLoopM idset skSet o s) := by
  rw [decryptLoop_eq]
  unfold decryptLoopM
  refine Runs.forEach o (fun k ct s h => ?_) h
  refine Runs.deref (F := fun k => SkA.read k m0) fun sk hg => ?_
  exact Runs.ite (fun _ => C71_partial h (hsk k sk hg)) fun _ => h

/-- The memory `m`, reached from `m0`, with the result of a decryption in the cell `pt`. -/
structure DRel (pt : Ptr) (m0 : PMem C) (v : RQ C) (m : PMem C) : Prop where
  val : m.q pt = v
  next : m0.next ≤ m.next
  frame : ∀ p : Ptr, p.o < m0.next → p ≠ pt → m.val p = m0.val p

/-- **C71 (decryption).** `Decrypt` on memory computes what it computes on values, and changes only
the plaintext, when the plaintext is neither part of the ciphertext nor a secret key. -/
theorem C71_decrypt {ct : CtA} (hw : ct.WF) {skSet : KeySet SkA} (hkw : skSet.value.WF) {pt : Ptr}
    (oC oI oS : List String) (m : PMem C) (hpt : pt.o < m.next)
    (hct : ∀ (i : String) (p : Ptr), ct.get? i = some p → p.o < m.next ∧ p ≠ pt)
    (hsk : ∀ (k : String) (sk : SkA), skSet.value.get? k = some sk →
      sk.value.o < m.next ∧ sk.value ≠ pt) :
    Runs (DRel pt m) (Decrypt (ct.read m) (readSks skSet m) (m.q pt) oC oI oS)
      (DecryptM ct skSet pt oC oI oS m) := by
  unfold Decrypt DecryptM Ct.Level CtA.levelM
  dsimp only
  rw [bind_assoc, bind_assoc]
  refine Runs.deref (F := fun p => m.q p) fun c0 hc0 => ?_
  show Runs _ (Ct.CopyNew _ _ >>= _) (CtA.CopyNewM _ _ _ >>= _)
  generalize min (m.q c0).level (m.q pt).level = l
  set m1 := m.wrQ pt fun x => x.truncate (l + 1) with hm1
  have hn1 : m1.next = m.next := rfl
  have hv1 : ∀ p : Ptr, p ≠ pt → m1.val p = m.val p := fun p hp => PMem.val_wrQ_of_ne _ _ hp
  have hr : ct.read m1 = ct.read m := CtA.read_wr_of_not m hw _ fun i p hp => (hct i p hp).2
  have hrs : readSks skSet m1 = readSks skSet m := by
    unfold readSks
    congr 1
    refine GoMap.mapVals_congr hkw fun i sk hg => ?_
    unfold SkA.read
    rw [hv1 _ (hsk i sk hg).2]
  have e1 : m1.q pt = (m.q pt).truncate (l + 1) := PMem.q_wrQ_self _ _ _
  rw [← hr, ← hrs, ← e1]
  refine (C71_copy oC m1 fun i p hp => (hct i p hp).1).bind fun cv s h => ?_
  obtain ⟨tmp, m2⟩ := s
  refine Runs.same (Ct.idLoop IDSet.new oI) fun idset => ?_
  refine (runs_decryptLoop m1 idset (fun k sk hg => (hsk k sk hg).1) oS h).bind
    fun cv s h => ?_
  obtain ⟨tmp, m3⟩ := s
  obtain ⟨h, rfl⟩ := h
  dsimp only at h ⊢
  rw [show (tmp.read m3).value.size = GoMap.size tmp by
    unfold CtA.read GoMap.size GoMap.mapVals; exact List.length_map _]
  refine Runs.ite (fun _ => rfl) fun _ => ?_
  refine Runs.deref (F := fun p => m3.q p) fun c0 hc0 => ?_
  refine ⟨?_, h.next, fun p h1 h2 => ?_⟩
  · rw [PMem.q_wrQ_self]
    unfold PMem.q
    rw [h.old pt hpt]
  · rw [PMem.val_wrQ_of_ne _ _ h2, h.old p h1, hv1 p h2]

/-- `Decrypt` of mkckks up to the decoding, on values. -/
def cdecryptV (pool : RQ C) (ct : Ct C) (skSet : KeySet (SecretKey C)) (oA oC oI oS : List String) :
    Go (RQ C) := do
  let tmp ← ct.CopyNew oA
  Decrypt tmp skSet pool oC oI oS

/-- **C71 (decryption of messages).** -/
theorem C71_cdecrypt {ed : EDA} {ct : CtA} {skSet : KeySet SkA} (hkw : skSet.value.WF)
    (oA oC oI oS : List String) (m : PMem C) (hpt : ed.dpool.o < m.next)
    (hct : ∀ (i : String) (p : Ptr), ct.get? i = some p → p.o < m.next)
    (hsk : ∀ (k : String) (sk : SkA), skSet.value.get? k = some sk →
      sk.value.o < m.next ∧ sk.value ≠ ed.dpool) :
    Runs (DRel ed.dpool m) (cdecryptV (m.q ed.dpool) (ct.read m) (readSks skSet m) oA oC oI oS)
      (CDecryptM ed ct skSet oA oC oI oS m) := by
  unfold cdecryptV CDecryptM
  refine (C71_copy oA m hct).bind fun cv s h => ?_
  obtain ⟨tmp, m1⟩ := s
  obtain ⟨h, rfl⟩ := h
  dsimp only at h ⊢
  have hv : m1.q ed.dpool = m.q ed.dpool := by
    unfold PMem.q
    rw [h.old _ hpt]
  have hrs : readSks skSet m1 = readSks skSet m := by
    unfold readSks
    congr 1
    refine GoMap.mapVals_congr hkw fun i sk hg => ?_
    unfold SkA.read
    rw [h.old _ (hsk i sk hg).1]
  rw [← hv, ← hrs]
  refine (C71_decrypt h.wf hkw oC oI oS m1 (hpt.trans_le h.next)
    (fun i p hp => ⟨(h.objs i p hp).2, fun e => ?_⟩)
    fun k sk hg => ⟨(hsk k sk hg).1.trans_le h.next, (hsk k sk hg).2⟩).mono fun v m2 hd => ?_
  · have := (h.objs i p hp).1
    rw [e] at this
    omega
  · exact ⟨hd.val, h.next.trans hd.next, fun p h1 h2 => by
      rw [hd.frame p (h1.trans_le h.next) h2, h.old p h1]⟩

end MK
