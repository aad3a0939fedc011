import Verif.Props.ExEval
import Verif.Props.Sets
import Verif.Props.History

/-!
# Concrete instances, mkrlwe and evaluator

Instances of theorems whose neighbouring examples only go through a corollary.
-/

noncomputable section

namespace MK

open Finset

/-! ### Sets -/

def cvCalls : List SetCall := [.add "a", .add "b", .remove "a", .add "c", .add "a", .remove "b"]

example : ∃ s, runSet IDSet.new cvCalls = .ok s ∧
    (∀ v, s.Has v = true ↔ SetCall.Alive cvCalls v) ∧
    ∀ l : List String, l.Nodup → (∀ v, v ∈ l ↔ SetCall.Alive cvCalls v) → s.Size = l.length :=
  C01_idset_history cvCalls (by decide)

example : Go.panics (IDSet.Add ⟨[("a", ())]⟩ "0") := C02_add_zero_panics _

def cvS : IDSet := ⟨[("b", ()), ("a", ())]⟩
def cvT : IDSet := ⟨[("b", ()), ("c", ())]⟩

theorem cvS_reach : cvS.Reachable :=
  .add (.add .new (show IDSet.new.Add "b" = .ok ⟨[("b", ())]⟩ from rfl)) (v := "a") (show IDSet.Add ⟨[("b", ())]⟩ "a" = .ok cvS from rfl)

theorem cvT_reach : cvT.Reachable :=
  .add (.add .new (show IDSet.new.Add "b" = .ok ⟨[("b", ())]⟩ from rfl)) (v := "c") (show IDSet.Add ⟨[("b", ())]⟩ "c" = .ok cvT from rfl)

example : cvS.Has "0" = false := C02_zero_never_member cvS_reach

example : ∃ r, cvS.Union cvT ["b", "a"] ["c", "b"] = .ok r ∧
    (∀ v, r.Has v = (cvS.Has v || cvT.Has v)) ∧ r.Size = 3 :=
  C03_union cvS_reach cvT_reach (by unfold GoMap.IsOrder; decide) (by unfold GoMap.IsOrder; decide)

example : ∃ r, cvS.Intersection cvT ["b", "c"] = .ok r ∧
    (∀ v, r.Has v = (cvS.Has v && cvT.Has v)) ∧ r.Size = 1 :=
  C03_intersection cvS_reach (by unfold GoMap.IsOrder; decide)

example : ∃ r, cvS.CopyNew ["b", "a"] = .ok r ∧ (∀ v, r.Has v = cvS.Has v) ∧ r.Size = 2 :=
  C03_copy cvS_reach (by unfold GoMap.IsOrder; decide)

def cvKeys : List (KeyCall (String × ℕ)) :=
  [.add ("a", 1), .add ("b", 2), .del "a", .add ("a", 3), .del "b"]

example : Go.panics ((runKeys Prod.fst KeySet.new cvKeys).get "b") ↔
    ¬ ∃ k, KeyCall.LastAdd Prod.fst cvKeys "b" k := (C04_keyset_history Prod.fst cvKeys "b").2

example : KeyCall.LastAdd Prod.fst cvKeys "a" ("a", 3) :=
  ((C04_keyset_history Prod.fst cvKeys "a").1 _).mp rfl

def cvRots : List (RotCall (String × ℕ)) :=
  [.add ("a", 1), .add ("a", 2), .del "a" 1, .del "z" 7, .add ("b", 1)]

example : RotCall.LastAdd Prod.fst Prod.snd cvRots "a" 2 ("a", 2) :=
  ((C05_rotation_keyset_history Prod.fst Prod.snd cvRots "a" 2).1 _).mp rfl

example : ¬ ∃ k, RotCall.LastAdd Prod.fst Prod.snd cvRots "a" 1 k :=
  (C05_rotation_keyset_history Prod.fst Prod.snd cvRots "a" 1).2.mp ⟨_, rfl⟩

example : (runRot Prod.fst Prod.snd RotationKeySet.new cvRots).del "z" 7 =
    runRot Prod.fst Prod.snd RotationKeySet.new cvRots :=
  C05_del_unknown_party _ "z" 7 rfl

example : KeyCall.LastAdd Prod.fst cvKeys "a" ("a", 3) :=
  ((C06_relin_keyset_history Prod.fst (0 : ℕ) cvKeys "a").1 _).mp rfl

example := C06_del_keeps_pool Prod.fst (0 : ℕ) (runRelin Prod.fst 0 RelinKeySet.new cvKeys) ("c", 5)

/-! ### Encryption and decryption -/

theorem cvPk : ∃ pk, GenPublicKey exCrs exE (GenSecretKey exS1 "alice") = .ok pk ∧
    pk.id = "alice" ∧ IsPK pk exS1 exE :=
  C34_public_key exCtx_good (exCrs_get 0 (by decide)) rfl exE_small
    (C34_secret_key exCtx_good exS1_small "alice").1

/-- A plaintext of level 2 encrypted by Alice into a ciphertext of Alice and Bob of level 3. -/
example (pool : RQ exCtx) : ∃ pk pool' r,
    Encrypt pool exS2 exE exE (exPoly 2 9) pk (Ct.new 3 ["bob", "alice"]) = .ok (pool', r) ∧
    r.Ragged 2 false ∧ ∀ i ≤ 2, r.phase exSec i = (exPoly 2 9).val exCtx.nttQ i +
      Nega.red (exCtx.q i) (exS2 * exE + exE + exE * exS1) := by
  obtain ⟨pk, -, hid, hpk⟩ := cvPk
  obtain ⟨pool', r, h1, h2, -, -, h5⟩ := C08_encrypt_phase exCtx_good (pk := pk) (o := ["bob", "alice"])
    (by rw [hid]; decide) (by decide) (L := 3) (by decide) hpk (b := false) rfl pool exS2 exE exE
    (exPoly 2 9)
  exact ⟨pk, pool', r, h1, h2, h5 exSec (by rw [hid]; rfl)⟩

example (pool : RQ exCtx) : ∃ pk pool' r w,
    Encrypt pool exS2 exE exE (exPoly 2 9) pk (Ct.newNTT 1 ["alice"]) = .ok (pool', r) ∧
    r.Wf 1 true ∧ Nega.Bdd w (9 * 2) ∧ ∀ i ≤ 1, r.phase exSec i =
      (exPoly 2 9).val exCtx.nttQ i + Nega.red (exCtx.q i) w := by
  obtain ⟨pk, -, hid, hpk⟩ := cvPk
  obtain ⟨pool', r, w, h1, -, h3, -, h5, h6⟩ := C08_encrypt_noise exCtx_good (pk := pk) (o := ["alice"])
    (by rw [hid]; decide) (by decide) (L := 1) (by decide) hpk (b := true) rfl pool exS2 exE exE
    (exPoly 2 9) exS2_bdd exS1_bdd exE_bdd exE_bdd exE_bdd
  exact ⟨pk, pool', r, w, h1, h3 (Or.inl (by decide)), h5, h6 exSec (by rw [hid]; rfl)⟩

/-- Decryption of a ciphertext of both parties, with both keys. -/
example (oI : List String) (hoI : ∀ r, exCtAB.CopyNew ["alice", "0", "bob"] = .ok r → r.value.IsOrder oI) :
    ∃ pt', Decrypt exCtAB
      ⟨⟨[("bob", GenSecretKey exS2 "bob"), ("alice", GenSecretKey exS1 "alice")]⟩⟩ (exPoly 3 1)
      ["alice", "0", "bob"] oI ["alice", "bob"] = .ok pt' ∧ pt'.len = 4 ∧
      ∀ i ≤ 3, ({ pt' with isNTT := false } : RQ exCtx).val exCtx.nttQ i = exCtAB.phase exSec i := by
  obtain ⟨pt', h1, h2, -, h4⟩ := C09_decrypt_phase exCtx_good exCtAB_wf.ragged (by decide)
    (skSet := ⟨⟨[("bob", GenSecretKey exS2 "bob"), ("alice", GenSecretKey exS1 "alice")]⟩⟩)
    (keyedById_of_history [.add (GenSecretKey exS2 "bob"), .add (GenSecretKey exS1 "alice")])
    (s := exSec) (by
      rw [exCtAB_parties]
      intro id hid
      exact exKeys_sk id (by simp at hid ⊢; tauto))
    (oC := ["alice", "0", "bob"]) (oI := oI) (oS := ["alice", "bob"])
    (by unfold GoMap.IsOrder; decide) hoI (by unfold GoMap.IsOrder; decide) (exPoly 3 1)
  exact ⟨pt', h1, h2, h4⟩

/-! ### Scales and keys -/

example := C17_scale (F := Fl.exact) Fl.exact_ok (q := fun i => i + 2) (fun i => by omega) 3 (s := 2 ^ 20) (by norm_num) 2

example := C35_default_rotation_keys exCtx_N exSample (RPoly.new 4) (fun _ _ => exE)
  (GenSecretKey exS1 "alice") RotationKeySet.new

example : Go.panics (GenRotationKey exCrs (RPoly.new 4) (fun _ => exE) (-5) (GenSecretKey exS1 "alice")) :=
  (C35_rotation_key_index (RPoly.new 4) (fun _ => exE) (-5) (GenSecretKey exS1 "alice") (by decide)).1.mpr
    (by decide)

example : Go.panics (GenKeyPairSparse exCrs exS1 exE) := C35_keypair_sparse_panics _ _ _

/-! ### Key switching -/

theorem cvHoisted : ∃ H : HoistedCt exCtx, IsHoisted 3 exCtAB H := by
  obtain ⟨_, H, -, -, h⟩ := C23_HoistedForm exCtx_good Ev.new_ok (a := exAB) exCtAB_wf exFwd
  exact ⟨H, h⟩

theorem cvNorm : normRot (exCtx.N / 2) (-1) = 1 := by rw [normRot_spec (by decide)]; decide

example : ∃ H k1 k2 r1 r2, (KS.new : KS exCtx).Rotate exCrs exCtAB (-1) exRkSet
      (Ct.new 3 ["alice", "bob"]) exRotOrd = .ok (k1, r1) ∧
    (KS.new : KS exCtx).RotateHoisted exCrs exCtAB (-1) H exRkSet (Ct.new 3 ["alice", "bob"])
      exRotOrd = .ok (k2, r2) ∧ r1.Same r2 := by
  obtain ⟨H, hH⟩ := cvHoisted
  exact ⟨H, C23_rotate_hoisted exCtx_N exCtx_good exRotShape exRotShape (rk := exRk)
    (by rw [cvNorm, exCtAB_parties]; exact fun id h => exRkSet_get h)
    (by rw [cvNorm]; exact exCrs_get 1 (by decide)) hH _ _ (C28_reach_ok .new) (C28_reach_ok .new)⟩

example (ks : KS exCtx) : (ks.ExternalProductHoisted 2 (KS.new.Decompose 2 (exPoly 2 5) SwKey.new).2
      (exSample 1) (exPoly 2 1)).2 = (KS.new.ExternalProduct 2 (exPoly 2 5) (exSample 1) (exPoly 2 1)).2 :=
  C30_hoisted_eq exCtx_good ks KS.new KS.new 2 (exPoly 2 5) (exSample 1) SwKey.new (exPoly 2 1)

/-- A key switcher that has been used. -/
def cvKs : KS exCtx := (KS.new.ExternalProduct 3 (exPoly 3 5) (exSample 1) (exPoly 3 2)).1

theorem cvKs_reach : cvKs.Reach := .ext .new _ _ _ _

example : (KS.new.ExternalProduct 2 (exPoly 2 5) (exSample 1) (exPoly 2 1)).2 =
    (cvKs.ExternalProduct 2 (exPoly 2 5) (exSample 1) (exPoly 2 1)).2 :=
  C28_external_product exCtx_good _ _ _ _ _ _

example := C28_decompose exCtx_good KS.new cvKs 2 (exPoly 2 5) SwKey.new (exSample 1)

example : ∃ k1 k2 r1 r2, (KS.new : KS exCtx).MulAndRelin exCrs exCtA exCtB exRlkSet
      (Ct.new 2 ["alice", "bob"]) exOrd = .ok (k1, r1) ∧
    cvKs.MulAndRelin exCrs exCtA exCtB exRlkSet (Ct.new 2 ["alice", "bob"]) exOrd = .ok (k2, r2) ∧
    r1.Same r2 :=
  C28_mul exCtx_good exShape exShape (exCrs_get (-1) (by decide))
    (fun id h => exRlkSet_get (by rw [exCtA_parties, exCtB_parties] at h; exact h)) .new cvKs_reach

example : ∃ k1 k2 r1 r2, (KS.new : KS exCtx).Rotate exCrs exCtAB (-1) exRkSet
      (Ct.new 3 ["alice", "bob"]) exRotOrd = .ok (k1, r1) ∧
    cvKs.Rotate exCrs exCtAB (-1) exRkSet (Ct.new 3 ["alice", "bob"]) exRotOrd = .ok (k2, r2) ∧
    r1.Same r2 :=
  C28_rotate exCtx_N exCtx_good exRotShape exRotShape (rk := exRk)
    (by rw [cvNorm, exCtAB_parties]; exact fun id h => exRkSet_get h)
    (by rw [cvNorm]; exact exCrs_get 1 (by decide)) .new cvKs_reach

example : ∃ k1 k2 r1 r2, (KS.new : KS exCtx).Conjugate exCrs exCtAB exCkSet
      (Ct.new 3 ["alice", "bob"]) exRotOrd = .ok (k1, r1) ∧
    cvKs.Conjugate exCrs exCtAB exCkSet (Ct.new 3 ["alice", "bob"]) exRotOrd = .ok (k2, r2) ∧
    r1.Same r2 :=
  C28_conjugate exCtx_N exCtx_good exRotShape exRotShape (ck := exCk)
    (by rw [exCtAB_parties]; exact fun id hid => exCkSet_get hid) (exCrs_get (-2) (by decide)) .new
    cvKs_reach

/-- The automorphism of the column rotation by one, on eight coefficients modulo 17. -/
example := C36_permutation_is_automorphism (N := 8) (m := 17) (k := 3) rfl (g := 5) (by decide)

example : ∃! i : Fin 8, permIdx 8 5 i = 6 := C36_positions_once (k := 3) rfl (by decide) 6

example : permWord 17 0 1 = 17 := (C36_word (q := 17) (a := 0) (tmp := 1) (by norm_num) le_rfl).2.2.mpr ⟨rfl, rfl⟩

/-! ### Evaluator -/

/-- An evaluator that has been used. -/
example (ev' : Ev exCtx) (rlk' : RlkSet exCtx) (r : CCt exCtx)
    (h : Ev.new.MulRelinNew exPrm exA exB false exRlkSet exRev = .ok (ev', rlk', r)) : ev'.Ok :=
  C28_ev_reach_ok (.mulRelin .new h)

example (ev' : Ev exCtx) : ∃ e1 e2 r1 r2,
    Ev.new.MulPtxtNew exPrm exA (exPoly 3 2) 64 exFwd = .ok (e1, r1) ∧
    ev'.MulPtxtNew exPrm exA (exPoly 3 2) 64 exRev = .ok (e2, r2) ∧ r1.ct.Same r2.ct ∧ r1.scale = r2.scale :=
  C28_MulPtxtNew exCtx_good (prm := exPrm) (ct := exA) exCtA_wf (exPoly 3 2) 64 exBy3 exFwd exRev

example (ev' : Ev exCtx) (h : ev'.Reach) : ∃ e1 e2 r1 r2,
    Ev.new.RotateNew exPrm exAB (-3) exRkSet exFwd = .ok (e1, r1) ∧
    ev'.RotateNew exPrm exAB (-3) exRkSet exRev = .ok (e2, r2) ∧ r1.ct.Same r2.ct ∧ r1.scale = r2.scale :=
  C28_RotateNew exCtx_N (by decide) exCtx_good (prm := exPrm) .new h (L := 3) (by decide) exCtAB_wf (-3)
    (rk := fun _ => exRk) (a := fun i => exSample i) (fun idx h => by rw [exNeeds h]; exact exKeysAt) exFwd exRev

example (ev' : Ev exCtx) (h : ev'.Reach) : ∃ e1 e2 r1 r2,
    Ev.new.ConjugateNew exPrm exAB exCkSet exFwd = .ok (e1, r1) ∧
    ev'.ConjugateNew exPrm exAB exCkSet exRev = .ok (e2, r2) ∧ r1.ct.Same r2.ct ∧ r1.scale = r2.scale :=
  C28_ConjugateNew exCtx_N exCtx_good (prm := exPrm) .new h exCtAB_wf (ck := exCk)
    (fun id h => exCkSet_get (by rwa [show exAB.ct.parties = _ from exCtAB_parties] at h))
    (exCrs_get (-2) (by decide)) exFwd exRev

/-- Both keys registered, Bob's twice, another one deleted. -/
example : ∃ x, Ev.new.MulRelinNew exPrm exA exB false (runRelin RelinKey.id SwKey.new RelinKeySet.new
    [.add (exRlk "bob"), .add (exRlk "alice"), .add (exRlk "bob"), .del "carol"]) exRev = .ok x := by
  have ha : (exRlk "alice").id = "alice" := (exRelin "alice").choose_spec.2.1
  have hb : (exRlk "bob").id = "bob" := (exRelin "bob").choose_spec.2.1
  refine C06_MulRelinNew_ok exCtx_good (prm := exPrm) (a := exA) (b := exB) Ev.new_ok false (by simp) exCtA_wf exCtB_wf
    (by decide) (by decide) (exCrs_get (-1) (by decide)) _ (fun id hid => ?_) exBy2 exRev
  rw [exAB_union] at hid
  refine ⟨exRlk id, ((C06_relin_keyset_history RelinKey.id (SwKey.new : SwKey exCtx) _ id).1 _).mp ?_⟩
  simp only [Finset.mem_insert, Finset.mem_singleton] at hid
  rcases hid with rfl | rfl
  · simp [runRelin, RelinKeySet.get, RelinKeySet.add, RelinKeySet.del, RelinKeySet.new, ha, hb]; rfl
  · simp [runRelin, RelinKeySet.get, RelinKeySet.add, RelinKeySet.del, RelinKeySet.new, ha, hb]; rfl

end MK
