import Verif.Props.KsMemRun
import Verif.Props.EncDec

/-!
# C71: encryption and decryption in sessions on memory
-/

noncomputable section

namespace MK

open PMem

variable {C : Ctx}

/-! ## On values -/

theorem isOrder_of_get? {V : Type} {a b : GoMap String V} (ha : a.WF) (hb : b.WF)
    (h : ∀ k, k ∈ a.keys ↔ k ∈ b.keys) {o : List String} (ho : a.IsOrder o) : b.IsOrder o :=
  ho.trans ((List.perm_ext_iff_of_nodup ha hb).mpr h)

/-- `Decrypt` of mkckks gives the phase. -/
theorem cdecryptV_phase (hC : C.Good) {ct : Ct C} {L : ℕ} {b : Bool} (hw : ct.Ragged L b)
    (hL : L < C.nQ) {skSet : KeySet (SecretKey C)} (hks : KeyedById skSet)
    {s : String → Nega C.N ℤ}
    (hs : ∀ id ∈ ct.parties, ∃ sk, skSet.value.get? id = some sk ∧ IsSK sk (s id))
    {oA oC oI oS : List String} (hoA : ct.value.IsOrder oA) (hoC : ct.value.IsOrder oC)
    (hoI : ct.value.IsOrder oI) (hoS : skSet.value.IsOrder oS) (pool : RQ C) :
    ∃ pt, cdecryptV pool ct skSet oA oC oI oS = .ok pt ∧ pt.len = min L pool.level + 1 ∧
      pt.isNTT = pool.isNTT ∧
      ∀ i ≤ min L pool.level, ({ pt with isNTT := b } : RQ C).val C.nttQ i = ct.phase s i := by
  obtain ⟨c1, e1, w1, g1⟩ := Ct.CopyNew_spec ct hw.zero_mem hoA
  have hkeys : ∀ k, k ∈ c1.value.keys ↔ k ∈ ct.value.keys := fun k => by
    rw [← GoMap.has_iff, ← GoMap.has_iff, GoMap.has, GoMap.has, g1]
  have hw1 : c1.Ragged L b :=
    ⟨w1, (hkeys _).mpr hw.zero_mem, fun p hp => hw.len0 p (g1 _ ▸ hp),
      fun id p hp => hw.len id p (g1 _ ▸ hp), fun id p hp => hw.ntt id p (g1 _ ▸ hp)⟩
  have ho1 : ∀ {o}, ct.value.IsOrder o → c1.value.IsOrder o := fun ho =>
    isOrder_of_get? hw.wf w1 (fun k => (hkeys k).symm) ho
  obtain ⟨pt, e2, h1, h2, h3⟩ := C09_decrypt_phase hC hw1 hL hks (s := s)
    (fun id hid => hs id (by simpa [Ct.parties, hkeys] using hid)) (ho1 hoC) (oI := oI)
    (fun r hr => by
      obtain ⟨r', hr', wr, gr⟩ := Ct.CopyNew_spec c1 hw1.zero_mem (ho1 hoC)
      obtain rfl : r' = r := by rw [hr] at hr'; exact (Except.ok.inj hr').symm
      refine isOrder_of_get? w1 wr (fun k => ?_) (ho1 hoI)
      rw [← GoMap.has_iff, ← GoMap.has_iff, GoMap.has, GoMap.has, gr]) hoS pool
  refine ⟨pt, ?_, h1, h2, fun i hi => ?_⟩
  · unfold cdecryptV
    rw [e1]
    exact e2
  · rw [h3 i hi]
    exact Ct.phase_congr s i fun id => by simp only [Ct.comp, g1]

theorem cdecryptV_isNTT {pool pt : RQ C} {ct : Ct C} {skSet : KeySet (SecretKey C)}
    {oA oC oI oS : List String} (h : cdecryptV pool ct skSet oA oC oI oS = .ok pt) :
    pt.isNTT = pool.isNTT := by
  unfold cdecryptV at h
  cases h1 : ct.CopyNew oA with
  | error e => rw [h1] at h; cases h
  | ok c =>
    rw [h1] at h
    change Decrypt c skSet pool oC oI oS = _ at h
    unfold Decrypt at h
    cases h2 : c.Level with
    | error e => rw [h2] at h; cases h
    | ok l =>
    cases h3 : c.CopyNew oC with
    | error e => rw [h2] at h; simp only [Go.ok_bind, h3] at h; cases h
    | ok c' =>
    cases h4 : c'.IDSet oI with
    | error e => rw [h2] at h; simp only [Go.ok_bind, h3, h4] at h; cases h
    | ok s =>
    cases h5 : decryptLoop s skSet c' oS with
    | error e => rw [h2] at h; simp only [Go.ok_bind, h3, h4, h5] at h; cases h
    | ok r =>
      rw [h2] at h
      simp only [Go.ok_bind, h3, h4, h5] at h
      split at h
      · cases h
      · cases h6 : r.value.deref "0" with
        | error e => rw [h6] at h; cases h
        | ok c0 =>
          rw [h6] at h
          injection h with h
          rw [← h]
          rfl

/-! ## What a session keeps -/

theorem Go.bind_ok {α β : Type _} {x : Go α} {f : α → Go β} {b : β} (h : (x >>= f) = .ok b) :
    ∃ a, x = .ok a ∧ f a = .ok b := by
  cases x with
  | error e => cases h
  | ok a => exact ⟨a, rfl, h⟩

/-- The samples of key generation: ternary secrets, errors of public keys up to `B`, and both
within the range in which the generator works. -/
def ECmd.KeySamples (B : ℤ) : ECmd C → Prop
  | .key (.genSk s _) => Small C s ∧ s.Bdd 1
  | .key (.genPk _ e) => Small C e ∧ e.Bdd B
  | _ => True

/-- Secret and public keys come from small samples, every public key from one of the secret keys of
the user, and the plaintext pool of the decryptor is not in NTT form. -/
structure EVal.Pub (B : ℤ) (v : EVal C) : Prop where
  crs : ∀ i a, v.k.crs.get? i = some a → (a 0).Q.len = C.nQ
  sks : ∀ k ∈ v.k.sks, ∃ s, s.Bdd 1 ∧ IsSK k s
  pks : ∀ k ∈ v.k.pks, ∃ sk ∈ v.k.sks, ∃ s e, s.Bdd 1 ∧ IsSK sk s ∧ Nega.Bdd e B ∧
    k.id = sk.id ∧ IsPK k s e
  ntt : v.ed.dpool.isNTT = false

theorem EVal.Pub.of_eq {B : ℤ} {v v' : EVal C} (h : v.Pub B) (hk : v'.k = v.k)
    (hd : v'.ed.dpool.isNTT = v.ed.dpool.isNTT) : v'.Pub B :=
  ⟨by rw [hk]; exact h.crs, by rw [hk]; exact h.sks, by rw [hk]; exact h.pks, hd.trans h.ntt⟩

theorem EVal.evalV_keeps {v v' : EVal C} {level : ℕ} {ids : List String}
    {f : Ct C → KS C → Go (KS C × Ct C)} (h : v.evalV level ids f = .ok v') :
    v'.k = v.k ∧ v'.ed = v.ed := by
  obtain ⟨⟨ks, ct⟩, _, h⟩ := Go.bind_ok h
  injection h with h
  subst h
  exact ⟨rfl, rfl⟩

/-- Commands other than key generation leave the keys and the form of the decryptor's pool. -/
theorem ECmd.runV_keeps {v v' : EVal C} {c : ECmd C} (hc : ∀ k, c ≠ .key k)
    (h : c.runV v = .ok v') :
    v'.k = v.k ∧ v'.ed.dpool.isNTT = v.ed.dpool.isNTT := by
  have self : ∀ {w : EVal C}, (.ok v : Go (EVal C)) = .ok w →
      w.k = v.k ∧ w.ed.dpool.isNTT = v.ed.dpool.isNTT := fun h => by
    injection h with h; subst h; exact ⟨rfl, rfl⟩
  have ev : ∀ {w' : EVal C} {level : ℕ} {ids : List String}
      {f : Ct C → KS C → Go (KS C × Ct C)},
      v.evalV level ids f = .ok w' → w'.k = v.k ∧ w'.ed.dpool.isNTT = v.ed.dpool.isNTT :=
    fun h => by
      obtain ⟨a, b⟩ := EVal.evalV_keeps h
      exact ⟨a, by rw [b]⟩
  cases c with
  | key k => exact absurd rfl (hc k)
  | put ids w => injection h with h; subst h; exact ⟨rfl, rfl⟩
  | addRlk i | addRot i | addCj i | addSk i =>
    unfold ECmd.runV at h
    dsimp only at h
    split at h
    · exact self h
    · injection h with h; subst h; exact ⟨rfl, rfl⟩
  | hoist i o =>
    unfold ECmd.runV at h
    dsimp only at h
    split at h
    · exact self h
    · obtain ⟨⟨ks, H⟩, _, h⟩ := Go.bind_ok h
      injection h with h; subst h; exact ⟨rfl, rfl⟩
  | mulNew i j level l0 l1 ids o0 o1 o =>
    unfold ECmd.runV at h
    dsimp only at h
    split at h
    · split at h
      · obtain ⟨⟨ks, p0⟩, _, h⟩ := Go.bind_ok h
        have := EVal.evalV_keeps h
        exact ⟨this.1, by rw [this.2]⟩
      · obtain ⟨⟨ks, p0⟩, _, h⟩ := Go.bind_ok h
        obtain ⟨⟨ks, p1⟩, _, h⟩ := Go.bind_ok h
        have := EVal.evalV_keeps h
        exact ⟨this.1, by rw [this.2]⟩
    · exact self h
  | mul i j level ids o =>
    unfold ECmd.runV at h
    dsimp only at h
    split at h
    · exact ev h
    · exact self h
  | mulHoisted i j h0 h1 level ids o =>
    unfold ECmd.runV at h
    dsimp only at h
    split at h
    · exact ev h
    · exact self h
  | rot i r level ids o =>
    unfold ECmd.runV at h
    dsimp only at h
    split at h
    · exact self h
    · exact ev h
  | rotHoisted i k r level ids o =>
    unfold ECmd.runV at h
    dsimp only at h
    split at h
    · exact ev h
    · exact self h
  | conj i level ids o =>
    unfold ECmd.runV at h
    dsimp only at h
    split at h
    · exact self h
    · exact ev h
  | enc f i level ids u e0 e1 =>
    unfold ECmd.runV at h
    dsimp only at h
    split at h
    · exact self h
    · obtain ⟨⟨ed, ct⟩, h1, h⟩ := Go.bind_ok h
      obtain ⟨⟨p, ct'⟩, _, h2⟩ := Go.bind_ok h1
      injection h with h; subst h
      injection h2 with h2
      have h3 := (Prod.mk.inj h2).1
      refine ⟨rfl, ?_⟩
      show ed.dpool.isNTT = _
      rw [← h3]
  | copy i o =>
    unfold ECmd.runV at h
    dsimp only at h
    split at h
    · exact self h
    · obtain ⟨ct, _, h⟩ := Go.bind_ok h
      injection h with h; subst h; exact ⟨rfl, rfl⟩
  | pdec i k o =>
    unfold ECmd.runV at h
    dsimp only at h
    split at h
    · obtain ⟨ct, _, h⟩ := Go.bind_ok h
      obtain ⟨ct, _, h⟩ := Go.bind_ok h
      injection h with h; subst h; exact ⟨rfl, rfl⟩
    · exact self h
  | dec i oA oC oI oS =>
    unfold ECmd.runV at h
    dsimp only at h
    split at h
    · exact self h
    · obtain ⟨pt, h1, h⟩ := Go.bind_ok h
      injection h with h; subst h
      exact ⟨rfl, cdecryptV_isNTT h1⟩

theorem EVal.Pub.step (hC : C.Good) {B : ℤ} {v v' : EVal C} (h : v.Pub B) {c : ECmd C}
    (hc : c.KeySamples B) (hr : c.runV v = .ok v') : v'.Pub B := by
  by_cases hk : ∀ k, c ≠ .key k
  · exact h.of_eq (ECmd.runV_keeps hk hr).1 (ECmd.runV_keeps hk hr).2
  push Not at hk
  obtain ⟨k, rfl⟩ := hk
  obtain ⟨k', hr', h'⟩ := Go.bind_ok hr
  injection h' with h'
  subst h'
  cases k with
  | genSk s id =>
    injection hr' with hr'
    subst hr'
    refine ⟨h.crs, fun k hk => ?_, fun k hk => ?_, h.ntt⟩
    · rcases List.mem_append.mp hk with hk | hk
      · exact h.sks k hk
      · obtain rfl : k = _ := by simpa using hk
        exact ⟨s, hc.2, (C34_secret_key hC hc.1 id).1⟩
    · obtain ⟨sk, h1, h2⟩ := h.pks k hk
      exact ⟨sk, List.mem_append_left _ h1, h2⟩
  | genPk i e =>
    unfold KCmd.runV at hr'
    dsimp only at hr'
    cases hi : v.k.sks[i]? with
    | none => rw [hi] at hr'; injection hr' with hr'; subst hr'; exact ⟨h.crs, h.sks, h.pks, h.ntt⟩
    | some sk =>
      rw [hi] at hr'
      dsimp only at hr'
      have hm := List.mem_of_getElem? hi
      obtain ⟨s, hs, hsk⟩ := h.sks sk hm
      cases ha : v.k.crs.get? 0 with
      | none =>
        unfold GenPublicKey at hr'
        rw [deref_of_none ha] at hr'
        exact absurd hr' (by intro h; cases h)
      | some a =>
        obtain ⟨pk, h1, h2, h3⟩ := C34_public_key hC ha (h.crs _ _ ha) hc.1 hsk
        rw [h1] at hr'
        injection hr' with hr'
        subst hr'
        refine ⟨h.crs, h.sks, fun k hk => ?_, h.ntt⟩
        rcases List.mem_append.mp hk with hk | hk
        · exact h.pks k hk
        · obtain rfl : k = _ := by simpa using hk
          exact ⟨sk, hm, s, e, hs, hsk, hc.2, h2, h3⟩
  | genRlk i j eb ed ev =>
    unfold KCmd.runV at hr'
    dsimp only at hr'
    split at hr'
    · obtain ⟨k, _, hr'⟩ := Go.bind_ok hr'
      injection hr' with hr'; subst hr'; exact ⟨h.crs, h.sks, h.pks, h.ntt⟩
    · injection hr' with hr'; subst hr'; exact ⟨h.crs, h.sks, h.pks, h.ntt⟩
  | genRot i r e =>
    unfold KCmd.runV at hr'
    dsimp only at hr'
    split at hr'
    · injection hr' with hr'; subst hr'; exact ⟨h.crs, h.sks, h.pks, h.ntt⟩
    · obtain ⟨k, _, hr'⟩ := Go.bind_ok hr'
      injection hr' with hr'; subst hr'; exact ⟨h.crs, h.sks, h.pks, h.ntt⟩
  | genCj i e =>
    unfold KCmd.runV at hr'
    dsimp only at hr'
    split at hr'
    · injection hr' with hr'; subst hr'; exact ⟨h.crs, h.sks, h.pks, h.ntt⟩
    · obtain ⟨k, _, hr'⟩ := Go.bind_ok hr'
      injection hr' with hr'; subst hr'; exact ⟨h.crs, h.sks, h.pks, h.ntt⟩
  | addCRS idx w =>
    injection hr' with hr'
    subst hr'
    refine ⟨fun i a ha => ?_, h.sks, h.pks, h.ntt⟩
    have ha : (v.k.crs.set idx (crsVec w)).get? i = some a := ha
    rw [GoMap.get?_set] at ha
    split at ha
    · injection ha with ha
      rw [← ha]
      exact crsVec_len _
    · exact h.crs i a ha

theorem EVal.Pub.run (hC : C.Good) {B : ℤ} {l : List (ECmd C)} {v v' : EVal C} (h : v.Pub B)
    (hl : ∀ c ∈ l, c.KeySamples B) (hr : runEV v l = .ok v') : v'.Pub B := by
  induction l generalizing v with
  | nil => injection hr with hr; exact hr ▸ h
  | cons c l ih =>
    obtain ⟨v1, h1, h2⟩ := Go.bind_ok hr
    exact ih (h.step hC (hl c List.mem_cons_self) h1)
      (fun c hc => hl c (List.mem_cons_of_mem _ hc)) h2

theorem startEV_pub (logN : ℕ) (u : ℤ → ℕ → QP C) (B : ℤ) : (startEV logN u).Pub B where
  crs i a ha := crsLoop_of u _ _ (fun _ a => (a 0).Q.len = C.nQ) (fun i a h => by cases h)
    (fun _ _ => crsVec_len _) i a ha
  sks k hk := absurd hk (by simp [startEV, startV])
  pks k hk := absurd hk (by simp [startEV, startV])
  ntt := rfl

/-! ## On memory -/

theorem EStep.of_ok {st st' : EState C} {x : Go (EVal C)} (h : EStep st x (.ok st')) :
    x = .ok st'.read ∧ st'.Ok ∧ st.Later st' := by
  unfold EStep at h
  cases x with
  | error e => exact absurd h (by simp)
  | ok v =>
    obtain ⟨st1, h1, h2, h3, h4⟩ := h
    injection h1 with h1
    subst h1
    exact ⟨by rw [h2], h3, h4⟩

theorem EStep.of_val {st : EState C} {v : EVal C} {y : Go (EState C)} (h : EStep st (.ok v) y) :
    ∃ st', y = .ok st' ∧ st'.read = v ∧ st'.Ok ∧ st.Later st' := h

theorem session_ok {logN : ℕ} {u : ℤ → ℕ → QP C} {m : PMem C} {l : List (ECmd C)} {st : EState C}
    (h : runEM (startEM logN u m) l = .ok st) : runEV (startEV logN u) l = .ok st.read ∧ st.Ok := by
  obtain ⟨hok, hr⟩ := startEM_ok logN u m
  have h1 := C70_run hok l
  rw [hr, h] at h1
  exact ⟨h1.of_ok.1, h1.of_ok.2.1⟩

theorem EState.Ok.keyedById {st : EState C} (h : st.Ok) : KeyedById st.read.skSet := by
  refine ⟨?_, fun k sk hg => ?_⟩
  · show (GoMap.mapVals _ _).keys.Nodup
    rw [GoMap.keys_mapVals]
    exact h.skWF
  · have hg : (st.skSet.value.mapVals fun _ k => k.read st.m).get? k = some sk := hg
    rw [GoMap.get?_mapVals, Option.map_eq_some_iff] at hg
    obtain ⟨ka, h1, rfl⟩ := hg
    exact h.skId _ (mem_of_get? h1)

theorem prefix_get? {α : Type} {a b : List α} {i : ℕ} {k : α} (h : a <+: b) (hk : a[i]? = some k) :
    b[i]? = some k := by
  obtain ⟨t, rfl⟩ := h
  obtain ⟨hi, _⟩ := List.getElem?_eq_some_iff.mp hk
  rw [List.getElem?_append_left hi, hk]

/-- **C71 (decryption in a session).** In every state of a session on memory, decrypting a
ciphertext whose parties all have their key in the set succeeds and yields its phase, up to the
smaller of the levels of the ciphertext and of the decryptor's pool. -/
theorem C71_session_decrypt (hC : C.Good) {logN : ℕ} {u : ℤ → ℕ → QP C} {m : PMem C}
    {l : List (ECmd C)} {st : EState C} (h : runEM (startEM logN u m) l = .ok st)
    {c : ℕ} {ct : CtA} (hc : st.cts[c]? = some ct) {L : ℕ} {b : Bool}
    (hw : (ct.read st.m).Ragged L b) (hL : L < C.nQ) {s : String → Nega C.N ℤ}
    (hs : ∀ id ∈ (ct.read st.m).parties, ∃ sk, st.skSet.value.get? id = some sk ∧
      IsSK (sk.read st.m) (s id))
    {oA oC oI oS : List String} (hoA : (ct.read st.m).value.IsOrder oA)
    (hoC : (ct.read st.m).value.IsOrder oC) (hoI : (ct.read st.m).value.IsOrder oI)
    (hoS : st.skSet.value.IsOrder oS) :
    ∃ st' pt, ECmd.runM st (.dec c oA oC oI oS) = .ok st' ∧ st'.outs = st.outs ++ [pt] ∧
      pt.len = min L (st.m.q st.ed.dpool).level + 1 ∧
      ∀ i ≤ min L (st.m.q st.ed.dpool).level,
        ({ pt with isNTT := b } : RQ C).val C.nttQ i = (ct.read st.m).phase s i := by
  obtain ⟨-, hok⟩ := session_ok h
  obtain ⟨pt, e1, e2, -, e4⟩ := cdecryptV_phase hC hw hL hok.keyedById (s := s)
    (fun id hid => by
      obtain ⟨sk, h1, h2⟩ := hs id hid
      refine ⟨sk.read st.m, ?_, h2⟩
      show (st.skSet.value.mapVals fun _ k => k.read st.m).get? id = _
      rw [GoMap.get?_mapVals, h1]
      rfl) hoA hoC hoI (oS := oS) (by
      show oS.Perm (GoMap.mapVals _ _).keys
      rw [GoMap.keys_mapVals]
      exact hoS) (st.m.q st.ed.dpool)
  have hst := C70_step hok (.dec c oA oC oI oS)
  have hv : ECmd.runV st.read (.dec c oA oC oI oS) = .ok { st.read with
      ed := { st.read.ed with dpool := pt }, outs := st.read.outs ++ [pt] } := by
    unfold ECmd.runV
    dsimp only
    rw [show st.read.cts[c]? = st.cts[c]?.map fun ct => ct.read st.m from read_getElem? _ _ _, hc]
    show (cdecryptV (st.m.q st.ed.dpool) (ct.read st.m) st.read.skSet oA oC oI oS >>= _) = _
    rw [e1]
    rfl
  rw [hv] at hst
  obtain ⟨st', h1, h2, -, -⟩ := hst.of_val
  refine ⟨st', pt, h1, ?_, e2, e4⟩
  have := congrArg EVal.outs h2
  exact this

/-- **C71 (round trip in a session).** A user on memory runs any commands `l`, encrypts with one of
the public keys, runs any commands `l'` and decrypts: the plaintext is the encrypted one plus a
noise of at most `(2N + 1) B`, up to the level of the decryptor's pool at that time.  The secret
keys have distinct ids, and the set holds one for every id of the ciphertext. -/
theorem C71_round_trip (hC : C.Good) {logN : ℕ} {u : ℤ → ℕ → QP C} {m : PMem C} {B : ℤ}
    {l : List (ECmd C)} (hl : ∀ c ∈ l, c.KeySamples B) {st : EState C}
    (h : runEM (startEM logN u m) l = .ok st) {i : ℕ} {pk : PkA} (hi : st.k.pks[i]? = some pk)
    {L : ℕ} (hL : L < C.nQ) {ids : List String} (hid : pk.id ∈ ids) (h0 : "0" ∉ ids)
    (f : RQ C → RQ C) {x e0 e1 : Nega C.N ℤ} (hx : x.Bdd 1) (he0 : e0.Bdd B) (he1 : e1.Bdd B) :
    ∃ st1 w, ECmd.runM st (.enc f i L ids x e0 e1) = .ok st1 ∧ Nega.Bdd w ((2 * C.N + 1) * B) ∧
      ∀ (l' : List (ECmd C)) (st2 : EState C), (∀ c ∈ l', c.KeySamples B) →
        runEM st1 l' = .ok st2 →
        (∀ k ∈ st2.k.sks, ∀ k' ∈ st2.k.sks, k.id = k'.id → k = k') →
        (∀ id ∈ ids, st2.skSet.value.has id = true) →
        ∀ oA oC oI oS : List String,
          (∀ o, o = oA ∨ o = oC ∨ o = oI → o.Nodup ∧ ∀ k, k ∈ o ↔ k = "0" ∨ k ∈ ids) →
          st2.skSet.value.IsOrder oS →
          ∃ st3 pt, ECmd.runM st2 (.dec st.cts.length oA oC oI oS) = .ok st3 ∧
            st3.outs = st2.outs ++ [pt] ∧ pt.isNTT = false ∧
            ∀ j ≤ min (min (f (st.m.q st.ed.ptxt)).level L) (st2.m.q st2.ed.dpool).level,
              pt.val C.nttQ j = (f (st.m.q st.ed.ptxt)).val C.nttQ j + Nega.red (C.q j) w := by
  obtain ⟨hv, hok⟩ := session_ok h
  have hP := (startEV_pub logN u B).run hC hl hv
  have hmem : pk.read st.m ∈ st.read.k.pks :=
    List.mem_map.mpr ⟨pk, List.mem_of_getElem? hi, rfl⟩
  obtain ⟨skv, hskm, s, e, hs1, hsk, heB, hpid, hpk⟩ := hP.pks _ hmem
  obtain ⟨ska, hska, rfl⟩ := List.mem_map.mp hskm
  have hid' : (pk.read st.m).id ∈ ids := hid
  have hne : (pk.read st.m).id ≠ "0" := fun e => h0 (e ▸ hid')
  set pt0 := f (st.m.q st.ed.ptxt) with hpt0
  obtain ⟨pool', r, w, q1, q2, -, q3, q4, q5⟩ := C08_encrypt_noise hC hid' h0 hL hpk
    (b := false) (ct := Ct.new L ids) rfl (st.m.q st.ed.poolQ) x e0 e1 pt0 hx hs1 heB he0 he1
  have hst := C70_step hok (.enc f i L ids x e0 e1)
  have hrv : ECmd.runV st.read (.enc f i L ids x e0 e1) = .ok { st.read with
      ed := { st.read.ed with poolQ := pool', ptxt := pt0 }, cts := st.read.cts ++ [r] } := by
    unfold ECmd.runV
    dsimp only
    rw [show st.read.k.pks[i]? = st.k.pks[i]?.map fun k => k.read st.m from read_getElem? _ _ _, hi]
    show (encMsgV (st.ed.read st.m) f x e0 e1 (pk.read st.m) L ids >>= _) = _
    unfold encMsgV
    rw [encryptV_eq hne]
    show ((Encrypt (st.m.q st.ed.poolQ) x e0 e1 pt0 (pk.read st.m) (Ct.new L ids) >>= _) >>= _) = _
    rw [q1]
    rfl
  have hst' := hst
  rw [hrv] at hst'
  obtain ⟨st1, r1, r2, ok1, lat1⟩ := hst'.of_val
  refine ⟨st1, w, r1, q4, fun l' st2 hl' hr2 hinj hhas oA oC oI oS ho hoS => ?_⟩
  have hv1 : st1.read.Pub B := hP.step hC (c := .enc f i L ids x e0 e1) trivial
    (by rw [hrv, r2])
  have hrun := C70_run ok1 l'
  rw [hr2] at hrun
  obtain ⟨hv2, ok2, lat2⟩ := hrun.of_ok
  have hP2 := hv1.run hC hl' hv2
  -- the ciphertext
  obtain ⟨ct, hct, hctr⟩ : ∃ ct, st1.cts[st.cts.length]? = some ct ∧ ct.read st1.m = r := by
    have : st1.read.cts[st.cts.length]? = some r := by
      rw [r2]
      show (st.read.cts ++ [r])[st.cts.length]? = _
      rw [show st.cts.length = st.read.cts.length by simp [EState.read]]
      exact List.getElem?_concat_length
    rw [show st1.read.cts[st.cts.length]? = st1.cts[st.cts.length]?.map fun ct => ct.read st1.m
      from read_getElem? _ _ _, Option.map_eq_some_iff] at this
    exact this
  have hct2 := prefix_get? lat2.cts hct
  have hread2 : ct.read st2.m = r :=
    (EState.frame_ct ok1 lat2.same (List.mem_of_getElem? hct)).trans hctr
  -- the keys
  have hska2 : ska ∈ st2.k.sks := (lat1.trans lat2).sks.subset hska
  have hskr : ska.read st2.m = ska.read st.m :=
    EState.frame_sk hok (lat1.trans lat2).same hska
  have hkey : ∀ id ∈ ids, ∃ sk, st2.skSet.value.get? id = some sk ∧ sk ∈ st2.k.sks ∧
      sk.id = id := fun id hmid => by
    have := hhas id hmid
    unfold GoMap.has at this
    obtain ⟨sk, hg⟩ := Option.isSome_iff_exists.mp this
    exact ⟨sk, hg, ok2.sk _ (mem_of_get? hg), ok2.skId _ (mem_of_get? hg)⟩
  have hsec : ∀ id ∈ ids, ∃ t, (id = pk.id → t = s) ∧ ∃ sk, st2.skSet.value.get? id = some sk ∧
      IsSK (sk.read st2.m) t := fun id hmid => by
    obtain ⟨sk, h1, h2, h3⟩ := hkey id hmid
    by_cases hp : id = pk.id
    · have : sk = ska := hinj sk h2 ska hska2 (h3.trans (hp.trans hpid))
      exact ⟨s, fun _ => rfl, sk, h1, by rw [this, hskr]; exact hsk⟩
    · obtain ⟨t, -, ht⟩ := hP2.sks (sk.read st2.m) (List.mem_map.mpr ⟨sk, h2, rfl⟩)
      exact ⟨t, fun e => absurd e hp, sk, h1, ht⟩
  choose! sec hsec1 hsec2 using hsec
  have hpar : (ct.read st2.m).parties = ids.toFinset := by rw [hread2, q3]
  have hkeys : ∀ k, k ∈ r.value.keys ↔ k = "0" ∨ k ∈ ids := fun k => by
    have h1 : k ∈ r.parties ↔ k ∈ ids := by rw [q3, List.mem_toFinset]
    by_cases hk : k = "0"
    · simp [hk, q2.zero_mem]
    · simp only [hk, false_or, ← h1]
      simp [Ct.parties, hk]
  have hord : ∀ o, o = oA ∨ o = oC ∨ o = oI → (ct.read st2.m).value.IsOrder o := fun o hoo => by
    rw [hread2]
    obtain ⟨n1, n2⟩ := ho o hoo
    exact (List.perm_ext_iff_of_nodup n1 q2.wf).mpr fun k => (n2 k).trans (hkeys k).symm
  have hses : runEM (startEM logN u m) (l ++ .enc f i L ids x e0 e1 :: l') = .ok st2 := by
    have app : ∀ (a b : List (ECmd C)) (s0 s1 : EState C), runEM s0 a = .ok s1 →
        runEM s0 (a ++ b) = runEM s1 b := by
      intro a b
      induction a with
      | nil => intro s0 s1 h; injection h with h; rw [h]; rfl
      | cons c a ih =>
        intro s0 s1 h
        obtain ⟨s', h1, h2⟩ := Go.bind_ok h
        show (c.runM s0 >>= fun s => runEM s (a ++ b)) = _
        rw [h1]
        exact ih s' s1 h2
    rw [app _ _ _ _ h]
    show (ECmd.runM st (.enc f i L ids x e0 e1) >>= fun s => runEM s l') = _
    rw [r1]
    exact hr2
  obtain ⟨st3, pt, d1, d2, d3, d4⟩ := C71_session_decrypt hC hses hct2 (L := min pt0.level L)
    (b := false) (hread2 ▸ q2) (lt_of_le_of_lt (min_le_right _ _) hL) (s := sec)
    (fun id hmid => hsec2 id (by rw [hpar, List.mem_toFinset] at hmid; exact hmid))
    (hord oA (.inl rfl)) (hord oC (.inr (.inl rfl))) (hord oI (.inr (.inr rfl))) hoS
  -- the pool of the decryptor
  have hntt : pt.isNTT = false := by
    have h3 := (C70_step ok2 (.dec st.cts.length oA oC oI oS))
    rw [d1] at h3
    obtain ⟨z1, -, -⟩ := h3.of_ok
    have z1' := z1
    unfold ECmd.runV at z1
    dsimp only at z1
    rw [show st2.read.cts[st.cts.length]? = st2.cts[st.cts.length]?.map fun ct => ct.read st2.m
      from read_getElem? _ _ _, hct2] at z1
    obtain ⟨p, z2, z3⟩ := Go.bind_ok z1
    injection z3 with z3
    have z4 : st2.outs ++ [p] = st3.outs := congrArg EVal.outs z3
    rw [d2] at z4
    have z5 : p = pt := by simpa using z4
    rw [← z5, cdecryptV_isNTT z2]
    exact hP2.ntt
  refine ⟨st3, pt, d1, d2, hntt, fun j hj => ?_⟩
  have h4 := d4 j hj
  rw [show ({ pt with isNTT := false } : RQ C) = pt by rw [← hntt], hread2,
    q5 sec (hsec1 _ hid rfl) j (hj.trans (min_le_left _ _))] at h4
  exact h4

end MK
