import Verif.Props.Exact
import Verif.Props.LrMain

/-!
# Key generation and encryption do not depend on the order in which id sets are visited
-/

noncomputable section

namespace MK

open Finset

variable {C : Ctx}

/-! ## Encryption -/

theorem GoMap.deref_congr {K V : Type} [DecidableEq K] {m m' : GoMap K V} {k : K}
    (h : m.get? k = m'.get? k) : m.deref k = m'.deref k := by
  unfold GoMap.deref; rw [h]

/-- `Encrypt` into ciphertexts with the same components. -/
theorem Encrypt_congr {c c' : Ct C} (h : ∀ id, c.value.get? id = c'.value.get? id) {pool : RQ C}
    {u e0 e1 : Nega C.N ℤ} {pt : RQ C} {pk : PublicKey C} {p : RQ C} {r : Ct C}
    (e : Encrypt pool u e0 e1 pt pk c = .ok (p, r)) :
    ∃ r', Encrypt pool u e0 e1 pt pk c' = .ok (p, r') ∧
      ∀ id, r.value.get? id = r'.value.get? id := by
  have hd : ∀ id, c.value.deref id = c'.value.deref id := fun id => GoMap.deref_congr (h id)
  have hs : ∀ (x : RQ C) (k id : String), (c.value.set k x).get? id = (c'.value.set k x).get? id := by
    intro x k id
    rw [GoMap.get?_set, GoMap.get?_set, h]
  have hd2 : ∀ (x : RQ C) (k id : String), (c.value.set k x).deref id = (c'.value.set k x).deref id :=
    fun x k id => GoMap.deref_congr (hs x k id)
  unfold Encrypt Ct.Level at e ⊢
  simp only [hd, hd2] at e ⊢
  cases h0 : c'.value.deref "0" with
  | error p => rw [h0] at e; cases e
  | ok c0 =>
    rw [h0] at e
    simp only [Go.ok_bind, Go.pure_eq] at e ⊢
    generalize hm : (c'.value.set "0" _).deref pk.id = w at e ⊢
    cases w with
    | error p => cases e
    | ok c1 =>
      simp only [Go.ok_bind] at e ⊢
      cases e
      refine ⟨_, rfl, fun id => ?_⟩
      simp only [GoMap.get?_set, h]

theorem CEnc.expand_congr {Msg : Type} {E : Encoder C Msg} {prm : CPar C} {enc enc' : CEnc C}
    {rnd : EncRand C} {msg : Msg} {pk : PublicKey C} {o o' : List String} (ho : ∀ id, id ∈ o ↔ id ∈ o')
    {ct : CCt C} (e : enc.EncryptMsgNewExpand E prm rnd msg pk o = .ok (enc', ct)) :
    ∃ ct', enc.EncryptMsgNewExpand E prm rnd msg pk o' = .ok (enc', ct') ∧
      (∀ id, ct.ct.value.get? id = ct'.ct.value.get? id) ∧ ct.scale = ct'.scale := by
  unfold CEnc.EncryptMsgNewExpand CEnc.EncryptMsg CEnc.EncryptPtxt CCt.new at e ⊢
  dsimp only at e ⊢
  generalize hw : Encrypt _ _ _ _ _ _ (Ct.new C.lq o : Ct C) = w at e
  cases w with
  | error p => cases e
  | ok pr =>
    obtain ⟨p, r⟩ := pr
    cases e
    obtain ⟨r', e', hr⟩ := Encrypt_congr (c' := Ct.new C.lq o') (fun id => by
      simp only [Ct.new_get?, ho]) hw
    rw [e']
    exact ⟨_, rfl, hr, rfl⟩

namespace Lr

theorem XVal.of_congr {c c' : CCt C} (h : ∀ id, c.ct.value.get? id = c'.ct.value.get? id)
    (hs : c.scale = c'.scale) (L : ℕ) : XVal.of L c = XVal.of L c' := by
  have h1 : c.ct.parties = c'.ct.parties := by
    ext id
    simp only [Ct.parties, mem_erase, List.mem_toFinset, ← GoMap.has_iff, GoMap.has, h]
  have h2 : c.ct.comp = c'.ct.comp := by
    funext id i
    simp only [Ct.comp, h]
  simp only [XVal.of, h1, h2, hs]

/-! ## Keys -/

/-- The two key sets hold the same keys of party `id`. -/
structure SameKeys (rots : List ℤ) (kb kb' : KeyBag C) (id : String) : Prop where
  sk : kb.skSet.value.get? id = kb'.skSet.value.get? id
  pk : kb.pkSet.value.get? id = kb'.pkSet.value.get? id
  rlk : kb.rlkSet.value.get? id = kb'.rlkSet.value.get? id
  rot : ∀ idx : ℕ, (idx : ℤ) ∈ rots → kb.rtkSet.get2 id idx = kb'.rtkSet.get2 id idx

theorem SameKeys.symm {rots : List ℤ} {kb kb' : KeyBag C} {id : String} (h : SameKeys rots kb kb' id) :
    SameKeys rots kb' kb id := ⟨h.sk.symm, h.pk.symm, h.rlk.symm, fun i hi => (h.rot i hi).symm⟩

theorem SameKeys.trans {rots : List ℤ} {a b c : KeyBag C} {id : String} (h : SameKeys rots a b id)
    (h' : SameKeys rots b c id) : SameKeys rots a c id :=
  ⟨h.sk.trans h'.sk, h.pk.trans h'.pk, h.rlk.trans h'.rlk, fun i hi => (h.rot i hi).trans (h'.rot i hi)⟩

theorem genRots_same (hC : C.Good) {crs : CRS C} {rnd : PartyRand C} {B : ℤ} (hr : rnd.Ok B)
    (hB : 2 * B < C.q 0) {sk : SecretKey C} (hs : IsSK sk rnd.s) (l : List ℤ) :
    (∀ rot ∈ l, 0 ≤ rot ∧ crs.has rot = true) → ∀ (t : ℕ) {a b a' b' : RotationKeySet (RotKey C)},
    genRots crs rnd sk t l a = .ok a' → genRots crs rnd sk t l b = .ok b' →
    ∀ idx : ℕ, (idx : ℤ) ∈ l → a'.get2 sk.id idx = b'.get2 sk.id idx := by
  induction l with
  | nil => intro _ _ _ _ _ _ _ _ idx h; cases h
  | cons rot l ih =>
    intro hl t a b a' b' ea eb idx hi
    obtain ⟨h0, hin⟩ := hl rot (by simp)
    obtain ⟨w, hw⟩ := GoMap.exists_get?_of_mem ((GoMap.has_iff _ _).mp hin)
    obtain ⟨rk, e1, hid, hidx, -⟩ := C34_rotation_key hC hin
      (a := w) (by rw [normRot_nonneg _ h0]; exact hw) hs (fun k => Bdd.small (hr.erot t k) hB)
      (rnd.poolRot t)
    rw [normRot_nonneg _ h0] at hidx
    have hl' : ∀ rot ∈ l, 0 ≤ rot ∧ crs.has rot = true := fun r hr => hl r (List.mem_cons_of_mem _ hr)
    rw [genRots, e1, Go.ok_bind] at ea eb
    by_cases hm : (idx : ℤ) ∈ l
    · exact ih hl' _ ea eb idx hm
    · obtain rfl : (idx : ℤ) = rot := by simpa [hm] using hi
      rw [Int.toNat_natCast] at hidx
      obtain ⟨a1, f1, -, h1⟩ := genRots_spec hC hr hB hs l hl' (t + 1) (a.add RotKey.id RotKey.rotIdx rk)
      obtain ⟨b1, f2, -, h2⟩ := genRots_spec hC hr hB hs l hl' (t + 1) (b.add RotKey.id RotKey.rotIdx rk)
      cases f1.symm.trans ea
      cases f2.symm.trans eb
      rw [h1 _ _ (Or.inr hm), h2 _ _ (Or.inr hm), RotationKeySet.get2_add, RotationKeySet.get2_add,
        if_pos ⟨hid.symm, hidx.symm⟩, if_pos ⟨hid.symm, hidx.symm⟩]

variable {crs : CRS C} {rots : List ℤ} {B : ℤ}

theorem genParty_same (hC : C.Good) (hq : 2 < C.q 0) (hB : 2 * B < C.q 0) (hcrs : CrsFor crs rots)
    {rnd : PartyRand C} (hr : rnd.Ok B) {id : String} {a b a' b' : KeyBag C}
    (ea : genParty crs rots rnd id a = .ok a') (eb : genParty crs rots rnd id b = .ok b') :
    SameKeys rots a' b' id ∧ ∀ id', id' ≠ id → SameKeys rots a' a id' := by
  obtain ⟨w, hw, hwlen⟩ := hcrs.zero
  obtain ⟨u, hu⟩ := hcrs.one
  obtain ⟨hsk, hskid⟩ := C34_secret_key hC (Bdd.small hr.s (by omega)) id
  obtain ⟨hrk, -⟩ := C34_secret_key hC (Bdd.small hr.r (by omega)) id
  obtain ⟨pk, e1, hpid, hpk⟩ := C34_public_key hC hw hwlen (Bdd.small hr.e hB) hsk
  obtain ⟨rlk, e2, hlid, -⟩ := C34_relin_key hC hw hu hsk hrk
    (fun k => Bdd.small (hr.eb k) hB) (fun k => Bdd.small (hr.ed k) hB)
    (fun k => Bdd.small (hr.ev k) hB) rnd.poolQ rnd.poolQP
  obtain ⟨sa, e3, -, h2⟩ := genRots_spec hC hr hB hsk rots hcrs.rots 0 a.rtkSet
  obtain ⟨sb, e4, -, -⟩ := genRots_spec hC hr hB hsk rots hcrs.rots 0 b.rtkSet
  have h5 := genRots_same hC hr hB hsk rots hcrs.rots 0 e3 e4
  rw [hskid] at hpid hlid h2 h5
  unfold genParty GenKeyPair at ea eb
  simp only [e1, e2, e3, e4, Go.ok_bind, Go.pure_eq] at ea eb
  cases ea
  cases eb
  refine ⟨⟨?_, ?_, ?_, h5⟩, fun id' hne => ⟨?_, ?_, ?_, fun idx _ => h2 id' idx (Or.inl hne)⟩⟩ <;>
    simp [KeySet.add, RelinKeySet.add, GoMap.get?_set, *]

theorem genParties_same (hC : C.Good) (hq : 2 < C.q 0) (hB : 2 * B < C.q 0) (hcrs : CrsFor crs rots)
    {rnd : String → PartyRand C} (order : List String) (hr : ∀ id ∈ order, (rnd id).Ok B) {id : String}
    {solo x : KeyBag C} (hs : genParty crs rots (rnd id) id x = .ok solo) :
    ∀ {kb kb' : KeyBag C}, id ∈ order ∨ SameKeys rots kb solo id →
      genParties crs rots rnd order kb = .ok kb' → SameKeys rots kb' solo id := by
  induction order with
  | nil =>
    intro kb kb' h e
    cases e
    exact h.resolve_left (by simp)
  | cons i l ih =>
    intro kb kb' h e
    obtain ⟨k1, e1, -⟩ := genParty_spec hC hq hB hcrs (hr i (by simp)) i kb
    rw [genParties, e1, Go.ok_bind] at e
    refine ih (fun j hj => hr j (List.mem_cons_of_mem _ hj)) ?_ e
    by_cases hl : id ∈ l
    · exact Or.inl hl
    · right
      by_cases hid : id = i
      · subst hid
        exact (genParty_same hC hq hB hcrs (hr id (by simp)) e1 hs).1
      · exact ((genParty_same hC hq hB hcrs (hr i (by simp)) e1 e1).2 id hid).trans
          (h.resolve_left (by simp [hid, hl]))

/-- **C66 (keys).** The keys of a party do not depend on the order in which `genTestParams` visits the
parties. -/
theorem C66_keys (hC : C.Good) {logN : ℕ} {sample sample' : ℤ → SwKey C}
    (hlen : ((sample 0) 0).Q.len = C.nQ) (hq : 2 < C.q 0) (hB : 2 * B < C.q 0)
    {rnd : String → PartyRand C} {order order' : List String} (hr : ∀ id ∈ order, (rnd id).Ok B)
    (hr' : ∀ id ∈ order', (rnd id).Ok B) {c c' : CRS C} {kb kb' : KeyBag C}
    (e : genTestParams logN (newCRS logN sample) sample' rnd order = .ok (c, kb))
    (e' : genTestParams logN (newCRS logN sample) sample' rnd order' = .ok (c', kb')) {id : String}
    (h : id ∈ order) (h' : id ∈ order') : c = c' ∧ SameKeys (allRots logN) kb kb' id := by
  have hfor := setupCRS_for (logN := logN) (sample := sample) (sample' := sample') hlen
  unfold genTestParams at e e'
  have ht : addAllCRS (newCRS logN sample) sample' lrRots = setupCRS logN sample sample' := rfl
  simp only [ht] at e e'
  generalize setupCRS logN sample sample' = cr at hfor e e'
  clear ht
  obtain ⟨solo, hs, -⟩ := genParty_spec hC hq hB hfor (hr id h) id KeyBag.new
  generalize hg : genParties cr (allRots logN) rnd order KeyBag.new = g at e
  generalize hg' : genParties cr (allRots logN) rnd order' KeyBag.new = g' at e'
  cases g with
  | error p => cases e
  | ok k =>
    cases g' with
    | error p => cases e'
    | ok k' =>
      cases e
      cases e'
      exact ⟨rfl, (genParties_same hC hq hB hfor order hr hs (Or.inl h) hg).trans
        (genParties_same hC hq hB hfor order' hr' hs (Or.inl h') hg').symm⟩

/-! ## The keys of a run -/

/-- The rotation keys and CRS vectors as functions. -/
def KeyBag.rrk (kb : KeyBag C) (idx : ℕ) (id : String) : RotKey C :=
  match kb.rtkSet.get2 id idx with
  | some k => k
  | none => ⟨id, idx, SwKey.new⟩

def crsAt (crs : CRS C) (idx : ℤ) : SwKey C :=
  match crs.get? idx with
  | some a => a
  | none => SwKey.new

/-- The keys in `kb` are those described by `rk`, `rrk` and the secrets `s`. -/
structure Env (prm : CPar C) (S : Finset String) (rk : String → RelinKey C)
    (rrk : ℕ → String → RotKey C) (s : String → Nega C.N ℤ) (pk : PublicKey C) (kb : KeyBag C) :
    Prop where
  x : XKeys prm S kb.rtkSet (crsAt prm.crs (-1)) rrk (fun i => crsAt prm.crs i)
  mach : (Mach.start kb).Ok S rk
  keyed : KeyedById kb.skSet
  sk : ∀ id ∈ S, ∃ sk, kb.skSet.value.get? id = some sk ∧ IsSK sk (s id)
  pk : kb.pkSet.get "company0" = .ok pk

/-- The run with other iteration orders. -/
def MainRand.reorder (rnd : MainRand C) (ids : Sched) (sch dec : ℕ → Sched) : MainRand C :=
  { rnd with ids := ids, sch := sch, dec := dec }

theorem RunOk.reorder {E : Encoder C (List ℂ)} {prm0 : CPar C} {logN : ℕ} {hp : Hyper ℂ}
    {slotNum numIter numCompany : ℕ} {rnd : MainRand C} {r : ℚ} {K : ℕ} {D B : ℤ} {M ε δ : ℝ}
    (h : RunOk E prm0 logN hp slotNum numIter numCompany rnd r K D B M ε δ) (ids : Sched)
    (sch dec : ℕ → Sched) :
    RunOk E prm0 logN hp slotNum numIter numCompany (rnd.reorder ids sch dec) r K D B M ε δ :=
  { h with }

theorem env_of {E : Encoder C (List ℂ)} {prm0 : CPar C} {logN : ℕ} {hp : Hyper ℂ}
    {slotNum numIter numCompany : ℕ} {rnd : MainRand C} {r : ℚ} {K : ℕ} {D B : ℤ} {M ε δ η : ℝ}
    (h : RunOk E prm0 logN hp slotNum numIter numCompany rnd r K D B M ε δ) {prm : CPar C}
    (hps : prm.scale = prm0.scale) (hpf : prm.fl = prm0.fl)
    (hpc : prm.crs = setupCRS logN rnd.sample rnd.sample') {ids : IDSet} {kb : KeyBag C}
    {pk : PublicKey C} (X : MainKeys E prm slotNum logN numCompany rnd D B M η ids kb pk)
    (idsO : Sched) (sch dec : ℕ → Sched) {ids' : IDSet} {kb' : KeyBag C} {pk' : PublicKey C}
    (X' : MainKeys E prm slotNum logN numCompany (rnd.reorder idsO sch dec) D B M η ids' kb' pk') :
    ids' = ids ∧ pk' = pk ∧ Env prm (companies numCompany).toFinset kb.rk kb.rrk
      (fun id => (rnd.party id).s) pk kb' := by
  obtain ⟨ids0, eid, wid, mid⟩ := IDSet.addAll_spec (companies numCompany)
    (zero_notMem_companies _) IDSet.new GoMap.empty_wf
  cases X.ids_eq.symm.trans X'.ids_eq
  cases eid.symm.trans X.ids_eq
  have hmem : ∀ (o : Sched) k id, id ∈ o.f k (GoMap.keys ids) ↔ id ∈ companies numCompany := by
    intro o k id
    rw [(o.perm k _).mem_iff, mid]
    simp [IDSet.new, GoMap.empty, GoMap.keys]
  have hsc : 0 < prm.scale := by have := h.chain.scale; rw [hps]; linarith
  have hfl : prm.fl.Ok := by rw [hpf]; exact h.fl
  have hfor : CrsFor prm.crs (allRots logN) := by rw [hpc]; exact setupCRS_for h.crsLen
  obtain ⟨kb0, ekb, hpk, -⟩ := C50_genTestParams h.good h.fits h.N_eq h.logN_pos
    (prm := prm) hfl hsc h.crsLen hpc h.q0 h.B0 h.Bq h.D0 h.digit
    (rnd.ids.f 0 (GoMap.keys ids)) fun id hid => h.party id ((hmem _ 0 id).mp hid)
  obtain rfl : kb = kb0 := by
    have := X.gen.symm.trans ekb
    rw [Except.ok.injEq, Prod.mk.injEq] at this
    exact this.2
  have hsame : ∀ id ∈ companies numCompany, SameKeys (allRots logN) kb' kb id := fun id hid =>
    (C66_keys h.good h.crsLen h.q0 h.Bq (fun i hi => h.party i ((hmem _ 0 i).mp hi))
      (fun i hi => h.party i ((hmem _ 0 i).mp hi)) X'.gen X.gen ((hmem _ 0 id).mpr hid)
      ((hmem _ 0 id).mpr hid)).2
  have hpkE : pk' = pk := by
    have h1 := X'.pk_eq
    have h2 := X.pk_eq
    rw [KeySet.get, (hsame _ (company0_mem h.company)).pk] at h1
    rw [KeySet.get, h1] at h2
    exact Except.ok.inj h2
  subst hpkE
  refine ⟨rfl, rfl, ⟨⟨logN, h.N_eq, h.logN_pos⟩, h.good, ?_, fun k idx hn => ?_⟩, ⟨X'.mach.ev, ⟨?_,
    X'.mach.rlk.pool0, X'.mach.rlk.pool1⟩, X'.mach.prods⟩, X'.keyed, X'.sk, X'.pk_eq⟩
  · obtain ⟨u, hu⟩ := hfor.one
    rw [crsAt, hu]
  · rw [hpc] at hn
    have hidx := rotNeeds_allRots h.N_eq h.logN_pos hn
    obtain ⟨b, hb⟩ := GoMap.exists_get?_of_mem ((GoMap.has_iff _ _).mp (hfor.rots _ hidx).2)
    refine ⟨by simp only [crsAt, hb], fun id hid => ?_⟩
    rw [List.mem_toFinset] at hid
    obtain ⟨rk, -, -, -, g, -⟩ := (hpk id ((hmem _ 0 id).mpr hid)).rot idx hidx
    simp only [KeyBag.rrk, g]
    exact RotationKeySet.get_of_get2 (((hsame id hid).rot idx hidx).trans g)
  · intro id hid
    have := X'.mach.rlk.keys id hid
    rw [this]
    have h1 := (hsame id (List.mem_toFinset.mp hid)).rlk
    simp only [KeyBag.rk, h1]

/-- Encryption of the same message to all parties in another order: the same state and value. -/
theorem expand_env {E : Encoder C (List ℂ)} {prm : CPar C} {n logN numCompany : ℕ}
    {rnd : MainRand C} {D B : ℤ} {M η : ℝ} {ids : IDSet} {kb : KeyBag C} {pk : PublicKey C} [NeZero n]
    {rnd' : MainRand C} {enc enc1 : CEnc C} {k t : ℕ} {msg : List ℂ} {ct : CCt C}
    (e : enc.EncryptMsgNewExpand E prm (rnd.enc t) msg pk (rnd.ids.f k (GoMap.keys ids)) = .ok (enc1, ct))
    (X' : MainKeys E prm n logN numCompany rnd' D B M η ids kb pk) (henc : EncOk prm enc)
    (hr : rnd'.enc = rnd.enc) (hl : msg.length = n) (hM : ∀ x ∈ msg, ‖x‖ ≤ M) :
    ∃ ct', enc.EncryptMsgNewExpand E prm (rnd.enc t) msg pk (rnd'.ids.f k (GoMap.keys ids)) =
        .ok (enc1, ct') ∧ IsX (companies numCompany).toFinset ct' (XVal.of (C.nQ - 1) ct) := by
  obtain ⟨enc2, ct2, e2, -, hf⟩ := X'.encAll henc k t msg hl hM
  rw [hr] at e2
  obtain ⟨ct', e', h1, h2⟩ := CEnc.expand_congr (o' := rnd'.ids.f k (GoMap.keys ids)) (fun id => by
    rw [(rnd.ids.perm k _).mem_iff, (rnd'.ids.perm k _).mem_iff]) e
  cases e2.symm.trans e'
  refine ⟨ct2, e', ?_⟩
  rw [XVal.of_congr h1 h2]
  exact IsX.of hf.wf hf.lt hf.parties

end Lr

end MK
