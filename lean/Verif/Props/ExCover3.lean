import Verif.Props.ExCover2
import Verif.Props.ExEncMem
import Verif.Props.ExHeap

/-!
# Concrete instances for single calls on memory (C57, C69–C71) and for the tests (C65, C68)
-/

noncomputable section

namespace MK

open PMem Finset

/-! ### Key generation on memory -/

/-- Key generator and memory after `NewKeyGenerator`. -/
abbrev cvSt : KState exCtx := startM 2 exU exPMem

theorem cvOwn : ∀ o < 3, cvSt.kg.Owns cvSt.m o := by
  intro o ho
  have h1 : cvSt.m.next = 11 := rfl
  have h2 : cvSt.kg.poolQ.o = 9 := rfl
  have h3 : cvSt.kg.poolQP.o = 10 := rfl
  refine ⟨?_, ?_, ?_⟩ <;> omega

theorem cvWF : cvSt.kg.WF cvSt.m := (C69_start 2 exU exPMem).1

/-- The key of carol lies at object 2, coefficient 5, of the memory that existed before. -/
abbrev cvSkA : SkA := ⟨"carol", ⟨2, 5⟩⟩

example : cvSt.kg.Impl cvSt.m (.ok (GenSecretKey exS1 "carol")) (.ok (GenSecretKeyM exS1 "carol" cvSt.m))
    SkA.read SkA.objs := C69_secret_key cvSt.kg exS1 "carol" cvSt.m

/-- The public key returns in memory, in two new objects, and leaves the secret key as it is. -/
example : ∃ k m', GenPublicKeyM cvSt.kg exE cvSkA cvSt.m = .ok (k, m') ∧ k.id = "carol" ∧
    k.objs.Nodup ∧ (∀ o ∈ k.objs, 11 ≤ o) ∧ m'.val ⟨2, 5⟩ = cvSt.m.val ⟨2, 5⟩ := by
  have h := C69_public_key cvWF exE (sk := cvSkA) (cvOwn 2 (by omega))
  have hv : ∃ v, GenPublicKey (readCRS cvSt.kg.crs cvSt.m) exE (cvSkA.read cvSt.m) = .ok v ∧
      v.id = "carol" := ⟨_, rfl, rfl⟩
  obtain ⟨v, hv, hid⟩ := hv
  rw [hv] at h
  obtain ⟨k, m', e1, e2, e3, e4⟩ := h
  exact ⟨k, m', e1, (congrArg PublicKey.id e2).trans hid, e4.1, fun o ho => (e4.2 o ho).1,
    e3.2 ⟨2, 5⟩ (cvOwn 2 (by omega))⟩

example (e : ℕ → Nega exCtx.N ℤ) : cvSt.kg.Impl cvSt.m
    (GenRotationKey (readCRS cvSt.kg.crs cvSt.m) (RPoly.new 0) e 1 (cvSkA.read cvSt.m))
    (GenRotationKeyM cvSt.kg e 1 cvSkA cvSt.m) RotA.read RotA.objs :=
  C69_rotation_key cvWF e 1 (cvOwn 2 (by omega)) _

example (e : ℕ → Nega exCtx.N ℤ) : cvSt.kg.Impl cvSt.m
    (GenConjugationKey (readCRS cvSt.kg.crs cvSt.m) (RPoly.new 0) e (cvSkA.read cvSt.m))
    (GenConjugationKeyM cvSt.kg e cvSkA cvSt.m) CjA.read CjA.objs :=
  C69_conjugation_key cvWF e (cvOwn 2 (by omega)) _

/-- All power-of-two rotation keys into a set that already has a key of bob at object 1. -/
abbrev cvRotsA : RotationKeySet RotA := ⟨⟨[("bob", ⟨[(1, ⟨"bob", 1, 1⟩)]⟩)]⟩⟩

theorem cvRotsOwned : RotsOwned cvSt.kg cvRotsA cvSt.m := by
  intro e he e' he'
  rw [List.mem_singleton.mp he] at he'
  rw [List.mem_singleton.mp he']
  exact cvOwn 1 (by omega)

example (e : ℕ → ℕ → Nega exCtx.N ℤ) :=
  C69_default_rotation_keys cvWF e (sk := cvSkA) (cvOwn 2 (by omega)) (RPoly.new 0) cvRotsOwned

/-- The call succeeds, and the key of bob stays where it was. -/
example : ∃ s' m', genDefaultLoopM cvSt.kg (fun _ _ => exE) cvSkA 1 cvRotsA cvSt.m = .ok (s', m') ∧
    RotsOwned cvSt.kg s' m' ∧ m'.val ⟨1, 4⟩ = exPMem.val ⟨1, 4⟩ := by
  obtain ⟨hw, hc, -, hold⟩ := C69_start 2 exU exPMem
  have h := C69_default_rotation_keys hw (fun _ _ => exE) (sk := cvSkA) (cvOwn 2 (by omega))
    (RPoly.new 0) cvRotsOwned
  rw [hc] at h
  obtain ⟨r, hr, -⟩ := C35_default_rotation_keys (C := exCtx) (logN := 2) rfl (fun i => crsVec (exU i))
    (RPoly.new 0) (fun _ _ => exE) (cvSkA.read cvSt.m) (readRots cvRotsA cvSt.m)
  rw [hr] at h
  obtain ⟨s', m', e1, -, e3, e4⟩ := h
  exact ⟨s', m', e1, e4, (e3.2 ⟨1, 4⟩ (cvOwn 1 (by omega))).trans (hold ⟨1, 4⟩ (by decide))⟩

example : KG.WF { cvSt.kg with crs := (addCRSM cvSt.kg.crs 3 (exU 3) cvSt.m).1 }
      (addCRSM cvSt.kg.crs 3 (exU 3) cvSt.m).2 ∧
    readCRS (addCRSM cvSt.kg.crs 3 (exU 3) cvSt.m).1 (addCRSM cvSt.kg.crs 3 (exU 3) cvSt.m).2 =
      addCRS (readCRS cvSt.kg.crs cvSt.m) 3 (crsVec (exU 3)) :=
  ⟨(C69_add_crs cvWF 3 (exU 3)).1, (C69_add_crs cvWF 3 (exU 3)).2.2⟩

/-- Copies of a secret key and of a public key whose two components are in objects 0 and 1. -/
example := C69_copies (kg := cvSt.kg) (m := cvSt.m) (sk := cvSkA) (cvOwn 2 (by omega))
  (pk := ⟨"carol", ⟨0, 0⟩, ⟨1, 0⟩⟩) (by
    intro o ho
    simp only [PkA.objs, List.mem_cons, List.not_mem_nil, or_false] at ho
    rcases ho with rfl | rfl
    · exact cvOwn 0 (by omega)
    · exact cvOwn 1 (by omega))

/-- One step from the state after `exCmds`: the value of the step decides success. -/
example : ∃ st, runM (startM 2 exU exPMem) exCmds = .ok st ∧
    KStep st (KCmd.runV st.read (.genPk 1 exE)) (KCmd.runM st (.genPk 1 exE)) := by
  obtain ⟨st, hs, hok, -⟩ := exRunM
  exact ⟨st, hs, C69_step hok _⟩

/-- The keys of the run of `exCmds` satisfy their equations. -/
example {st : KState exCtx} (h : runM (startM 2 exU exPMem) exCmds = .ok st) :
    st.read.Sound (CRSOf 2 exU exCmds) := C69_sound exCtx_good (by decide) exCmds_small h

/-! ### Key switching on memory -/

abbrev cvOut : CtA := ⟨[("0", ⟨3, 0⟩), ("alice", ⟨4, 0⟩)]⟩
abbrev cvIn : CtA := ⟨[("0", ⟨5, 0⟩), ("alice", ⟨6, 0⟩)]⟩

theorem cvSafe : ∀ o : ℕ, 5 ≤ o → o < 20 → Safe ⟨20⟩ cvOut o := fun o h1 h2 =>
  ⟨fun h => absurd h.1 (by show ¬ 20 ≤ o; omega), fun i p hp h => by
    rcases List.mem_cons.mp (mem_of_get? hp) with h' | h'
    · rw [← h, (Prod.mk.inj h').2] at h1; exact absurd h1 (by decide)
    · rw [← h, (Prod.mk.inj (List.mem_singleton.mp h')).2] at h1; exact absurd h1 (by decide)⟩

theorem cvInSafe : CtSafe ⟨20⟩ cvOut cvIn := fun i p hp => by
  rcases List.mem_cons.mp (mem_of_get? hp) with h' | h'
  · rw [(Prod.mk.inj h').2]; exact cvSafe 5 (by omega) (by omega)
  · rw [(Prod.mk.inj (List.mem_singleton.mp h')).2]; exact cvSafe 6 (by omega) (by omega)

theorem cvObjSafe {κ : Type} [DecidableEq κ] (k : κ) {o : ℕ} (h1 : 5 ≤ o) (h2 : o < 20) :
    ObjSafe ⟨20⟩ cvOut (⟨[(k, o)]⟩ : GoMap κ ℕ) := fun i o' ho => by
  rw [(Prod.mk.inj (List.mem_singleton.mp (mem_of_get? ho))).2]
  exact cvSafe o h1 h2

example (m : PMem exCtx) (o : MulOrd) :=
  C70_mul (ka := ⟨20⟩) (out := cvOut) (op0 := cvIn) (op1 := cvIn) (crs := ⟨[(-1, 13)]⟩)
    (rlk := ⟨[("alice", ⟨"alice", 10, 11, 12⟩)]⟩) m
    (⟨readRlks ⟨[("alice", ⟨"alice", 10, 11, 12⟩)]⟩ m, GoMap.empty, GoMap.empty⟩ :
      RelinKeySet (RelinKey exCtx) (SwKey exCtx)) o exOutOk cvInSafe cvInSafe
    (cvObjSafe (-1 : ℤ) (o := 13) (by omega) (by omega))
    (fun i k hk => by
      rw [(Prod.mk.inj (List.mem_singleton.mp (mem_of_get? hk))).2]
      exact ⟨cvSafe 10 (by omega) (by omega), cvSafe 11 (by omega) (by omega),
        cvSafe 12 (by omega) (by omega)⟩) rfl

/-- The rotation keys of alice for 1 and 2 at objects 15 and 16. -/
abbrev cvRkA : RotationKeySet RotA :=
  ⟨⟨[("alice", ⟨[(1, ⟨"alice", 1, 15⟩), (2, ⟨"alice", 2, 16⟩)]⟩)]⟩⟩

theorem cvRotSafe : RotSafe ⟨20⟩ cvOut cvRkA := by
  intro i r k h
  have : k.value = 15 ∨ k.value = 16 := by
    unfold RotationKeySet.get at h
    split at h
    · cases h
    · next inner hi =>
      split at h
      · cases h
      · next k' hk =>
        cases h
        rw [(Prod.mk.inj (List.mem_singleton.mp (mem_of_get? hi))).2] at hk
        rcases List.mem_cons.mp (mem_of_get? hk) with h' | h'
        · rw [(Prod.mk.inj h').2]; exact Or.inl rfl
        · rw [(Prod.mk.inj (List.mem_singleton.mp h')).2]; exact Or.inr rfl
  rcases this with h | h <;> rw [h]
  · exact cvSafe 15 (by omega) (by omega)
  · exact cvSafe 16 (by omega) (by omega)

/-- Rotation by 3, with the CRS vectors for 1 and 2 at the object 13. -/
example (m : PMem exCtx) (o : RotOrd) :=
  C70_rotate (ka := ⟨20⟩) (out := cvOut) (ctIn := cvIn) (crs := ⟨[(1, 13)]⟩) (rks := cvRkA) m 3 o
    exOutOk cvInSafe (cvObjSafe (1 : ℤ) (o := 13) (by omega) (by omega)) cvRotSafe

example (m : PMem exCtx) (o : RotOrd) :=
  C70_rotateHoisted (ka := ⟨20⟩) (out := cvOut) (ctIn := cvIn) (H := ⟨[("alice", 7)]⟩)
    (crs := ⟨[(1, 13)]⟩) (rks := cvRkA) m 1 o exOutOk cvInSafe
    (cvObjSafe "alice" (o := 7) (by omega) (by omega))
    (cvObjSafe (1 : ℤ) (o := 13) (by omega) (by omega)) cvRotSafe

example (m : PMem exCtx) (o : RotOrd) :=
  C70_conjugate (ka := ⟨20⟩) (out := cvOut) (ctIn := cvIn) (crs := ⟨[(-2, 13)]⟩)
    (cks := ⟨⟨[("alice", ⟨"alice", 15⟩)]⟩⟩) m o exOutOk cvInSafe
    (cvObjSafe (-2 : ℤ) (o := 13) (by omega) (by omega)) (fun i k h => by
      have : k.value = 15 := by
        unfold KeySet.get at h
        split at h
        · next k' hk =>
          cases h
          rw [(Prod.mk.inj (List.mem_singleton.mp (mem_of_get? hk))).2]
        · cases h
      rw [this]
      exact cvSafe 15 (by omega) (by omega))

/-! ### Encryption and decryption on memory -/

/-- Encryption into objects 3 and 4, with the pool at 7, the plaintext at 8 and the public key at 1
and 2. -/
example (u e0 e1 : Nega exCtx.N ℤ) (m : PMem exCtx) :
    Runs (ERel ⟨7, 0⟩ cvOut m)
      (encryptV (m.q ⟨7, 0⟩) u e0 e1 (m.q ⟨8, 0⟩) (PkA.read ⟨"alice", ⟨1, 0⟩, ⟨2, 0⟩⟩ m) (cvOut.read m))
      (EncryptM ⟨7, 0⟩ ⟨8, 0⟩ u e0 e1 ⟨"alice", ⟨1, 0⟩, ⟨2, 0⟩⟩ cvOut m) :=
  C71_encrypt ⟨exOutOk.wf, exOutOk.inj, fun {i p} hp => by
      rcases List.mem_cons.mp (mem_of_get? hp) with h' | h'
      · rw [(Prod.mk.inj h').2]; decide
      · rw [(Prod.mk.inj (List.mem_singleton.mp h')).2]; decide⟩ u e0 e1 m (by
    intro p hp
    have hp' : p = ⟨8, 0⟩ ∨ p = ⟨1, 0⟩ ∨ p = ⟨2, 0⟩ := hp
    refine ⟨by rcases hp' with rfl | rfl | rfl <;> decide, fun i hi => ?_⟩
    rcases List.mem_cons.mp (mem_of_get? hi) with h' | h'
    · rw [(Prod.mk.inj h').2] at hp'; revert hp'; decide
    · rw [(Prod.mk.inj (List.mem_singleton.mp h')).2] at hp'; revert hp'; decide)

/-- Pools at 7 to 9; the public key at 1 and 2; ten objects. -/
example (m : PMem exCtx) (hm : m.next = 10) :=
  C71_encMsg (ed := ⟨7⟩) (pk := ⟨"alice", ⟨1, 0⟩, ⟨2, 0⟩⟩) exEncF exS1 exE exE 1 ["alice", "bob"] m
    (by rw [hm]; decide) (by
      rintro p (rfl | rfl) <;> refine ⟨by rw [hm]; decide, fun h => ?_⟩ <;>
        exact absurd h.1 (by decide))

example (m : PMem exCtx) (hm : m.next = 10) :
    Runs (CRel m) ((cvIn.read m).CopyNew ["alice", "0"]) (cvIn.CopyNewM ["alice", "0"] m) :=
  C71_copy ["alice", "0"] m (fun i p hp => by
    rcases List.mem_cons.mp (mem_of_get? hp) with h' | h'
    · rw [(Prod.mk.inj h').2, hm]; decide
    · rw [(Prod.mk.inj (List.mem_singleton.mp h')).2, hm]; decide)

/-- A copy followed by a partial decryption with the key of alice at object 3. -/
example (m : PMem exCtx) (hm : m.next = 10) : Runs (CRel m)
    ((cvIn.read m).CopyNew ["alice", "0"] >>= fun c => PartialDecrypt c (SkA.read ⟨"alice", ⟨3, 0⟩⟩ m))
    (cvIn.CopyNewM ["alice", "0"] m >>= fun c => PartialDecryptM c.1 ⟨"alice", ⟨3, 0⟩⟩ c.2) :=
  (C71_copy ["alice", "0"] m (fun i p hp => by
    rcases List.mem_cons.mp (mem_of_get? hp) with h' | h'
    · rw [(Prod.mk.inj h').2, hm]; decide
    · rw [(Prod.mk.inj (List.mem_singleton.mp h')).2, hm]; decide)).bind fun _ _ h =>
      C71_partial h (by rw [hm]; decide)

/-- The secret key of alice at object 3; the plaintext goes to object 9. -/
example (m : PMem exCtx) (hm : m.next = 10) :=
  C71_decrypt (ct := cvIn) (by simp [GoMap.WF, GoMap.keys])
    (skSet := ⟨⟨[("alice", ⟨"alice", ⟨3, 0⟩⟩)]⟩⟩) (by simp [GoMap.WF, GoMap.keys]) (pt := ⟨9, 0⟩)
    ["0", "alice"] ["alice", "0"] ["alice"] m (by rw [hm]; decide)
    (fun i p hp => by
      rcases List.mem_cons.mp (mem_of_get? hp) with h' | h'
      · rw [(Prod.mk.inj h').2, hm]; decide
      · rw [(Prod.mk.inj (List.mem_singleton.mp h')).2, hm]; decide)
    (fun i k hk => by
      rw [(Prod.mk.inj (List.mem_singleton.mp (mem_of_get? hk))).2, hm]; decide)

example (m : PMem exCtx) (hm : m.next = 10) :=
  C71_cdecrypt (ed := ⟨7⟩) (ct := cvIn)
    (skSet := ⟨⟨[("alice", ⟨"alice", ⟨3, 0⟩⟩)]⟩⟩) (by simp [GoMap.WF, GoMap.keys])
    ["alice", "0"] ["0", "alice"] ["alice", "0"] ["alice"] m (by rw [hm]; decide)
    (fun i p hp => by
      rcases List.mem_cons.mp (mem_of_get? hp) with h' | h'
      · rw [(Prod.mk.inj h').2, hm]; decide
      · rw [(Prod.mk.inj (List.mem_singleton.mp h')).2, hm]; decide)
    (fun i k hk => by
      rw [(Prod.mk.inj (List.mem_singleton.mp (mem_of_get? hk))).2, hm]; decide)

/-- A decryption after the sessions of `ExEncMem`: its hypotheses hold for the ciphertext of a
reachable state whose parties have their keys in the set. -/
example {st : EState exCtx} (h : runEM (startEM 2 exU exPMem) (exDCmds ++ exDCmds') = .ok st)
    {c : ℕ} {ct : CtA} (hc : st.cts[c]? = some ct) (hw : (ct.read st.m).Ragged 1 false)
    (hs : ∀ id ∈ (ct.read st.m).parties, ∃ sk, st.skSet.value.get? id = some sk ∧
      IsSK (sk.read st.m) (exSec id)) :
    ∃ st' pt, ECmd.runM st (.dec c (ct.read st.m).value.keys (ct.read st.m).value.keys
      (ct.read st.m).value.keys st.skSet.value.keys) = .ok st' ∧ st'.outs = st.outs ++ [pt] := by
  obtain ⟨st', pt, h1, h2, -⟩ := C71_session_decrypt exCtx_good h hc hw (by decide) hs
    (List.Perm.refl _) (List.Perm.refl _) (List.Perm.refl _) (List.Perm.refl _)
  exact ⟨st', pt, h1, h2⟩

/-! ### Decryption after a history -/

/-- After two decryptions at the levels 1 and 2 a ciphertext of level 3 decodes from its centred
message modulo the first two moduli. -/
example (π : Sched) {m : Nega exCtx.N ℤ} (hm : (exCall 3).ct.ct.Carries exSec 3 m) :
    ∃ dec dec', (CDec.new exPrm).run exEnc [exCall 1, exCall 2] = .ok dec ∧
      dec.Decrypt exEnc (exCall 3).ct exKeys π =
        .ok (dec', exEnc.decode (centre 697 m) (exCall 3).ct.scale) := by
  have := C43_after_history exCtx_good exEnc exPrm (hist := [exCall 1, exCall 2]) (levels := [1, 2])
    (.cons (exCall_ok (by decide)) (.cons (exCall_ok (by decide)) .nil))
    (exCall_ok (L := 3) (by decide)).1 (by decide) exKeys_keyed (s := exSec)
    (fun id hid => exKeys_sk id (by
      have : (exCall 3).ct.ct.parties = {"bob", "alice"} := rfl
      rw [this] at hid
      simpa using hid)) hm π
  rwa [show min 3 (lowest exCtx.lq [1, 2]) = 1 from rfl, exProd1] at this

/-! ### Tests of mkrlwe -/

/-- Decryption test and encryption test agree on the samples of `pnX`. -/
example (b : Bool) (slack : ℕ) :
    testDecrypt b slack 15 pnCrs (RPoly.new 21) pnX.s pnX.e pnX.u pnX.e0 pnX.e1 ["tetsUser1", "0"]
        ["0", "tetsUser1"] ["tetsUser1"] =
      testEncryptor slack 15 pnCrs (RPoly.new 3) pnX.s pnX.e pnX.u pnX.e0 pnX.e1 :=
  C68_Decrypt_eq_Encrypt pnCtx_good pnCtx_fits
    (pn_above.mono (by show 38 * (2 * 32768 + 1) + 1 ≤ 2 ^ 30; norm_num)) pnCrs_zero rfl _ _ pnX_ok b
    slack 15 (List.Perm.swap _ _ _) (List.Perm.refl _) (List.Perm.refl _)

/-- The three verdicts of the multi-key test for any slack. -/
example (slack slack' : ℕ) :=
  C68_Multikey_verdict pnCtx_good pnCtx_fits
    (pn_above.mono (by show 76 * (2 * 32768 + 1) + 1 ≤ 2 ^ 30; norm_num)) pnCrs_zero rfl (RPoly.new 21)
    (s0 := pnS) pnX_ok pnY_ok slack slack' 15 (ids := ["user2", "user1"])
    (o1 := ⟨["0", "user1"], ["user1", "0"], ["user2", "user1", "tetsUser1"]⟩)
    (o2 := ⟨["0", "user2"], ["user2", "0"], ["tetsUser1", "user1", "user2"]⟩)
    (o3 := ⟨["user1", "0", "user2"], ["user2", "user1", "0"], ["user1", "tetsUser1", "user2"]⟩)
    (by decide) ⟨by decide, by decide, by decide⟩ ⟨by decide, by decide, by decide⟩
    ⟨by decide, by decide, by decide⟩

/-- The size of the polynomial `3 - 2 X + X^3` modulo 17 and 41 is that of 6. -/
example : log2OfInnerSum exCtx.nQ 1 (⟨2, fun i => (Nega.red (exCtx.q i)
      (⟨![3, -2, 0, 1]⟩ : Nega 4 ℤ)).coeff, false⟩ : RQ exCtx) = .ok 3 := by
  have h := C65_log2OfInnerSum (N := exCtx.N) (n := exCtx.nQ) (level := 1) ⟨by decide, by decide, by decide, exCtx_good.copQ⟩ (by decide)
    (poly := (⟨2, fun i => (Nega.red (exCtx.q i) (⟨![3, -2, 0, 1]⟩ : Nega 4 ℤ)).coeff, false⟩ :
      RQ exCtx)) (by decide) (e := ⟨![3, -2, 0, 1]⟩) (fun i _ => rfl) (by decide)
  rw [h]
  decide

end MK
