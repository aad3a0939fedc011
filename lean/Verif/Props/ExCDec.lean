import Verif.Props.CDec
import Verif.Props.ExEval

/-!
# Concrete cases for C43 and C49

Parameter set `exCtx` (moduli 17, 41, 73, 97) with an encoder that scales each coefficient.
-/

noncomputable section

namespace MK

open Finset

/-- Messages are vectors of rationals, encoded coefficient by coefficient. -/
def exEnc : Encoder exCtx (Fin 4 → ℚ) where
  encode m s := ⟨fun j => round (m j * s)⟩
  decode p s := fun j => (p.coeff j : ℚ) / s

theorem exEnc_inj : Function.Injective fun m : Nega exCtx.N ℤ => exEnc.decode m 64 := by
  intro a b h
  ext j
  have := congrFun h j
  simp only [exEnc] at this
  have h2 : (a.coeff j : ℚ) = b.coeff j := by linarith
  exact_mod_cast h2

/-- `(16, 0, -2, 1/64)`, encoded at scale 64 as `(1024, 0, -128, 1)`. -/
def exMsg : Fin 4 → ℚ := ![16, 0, -2, 1 / 64]

theorem exMsg_encode : exEnc.encode exMsg 64 = ⟨(![1024, 0, -128, 1] : Fin 4 → ℤ)⟩ := by
  ext j
  show round (exMsg j * 64) = _
  fin_cases j
  · show round ((16 : ℚ) * 64) = 1024
    norm_num
  · show round ((0 : ℚ) * 64) = 0
    norm_num
  · show round ((-2 : ℚ) * 64) = -128
    norm_num
  · show round ((1 / 64 : ℚ) * 64) = 1
    norm_num

def exKeys : KeySet (SecretKey exCtx) :=
  ⟨⟨[("bob", GenSecretKey exS2 "bob"), ("alice", GenSecretKey exS1 "alice")]⟩⟩

theorem exKeys_keyed : KeyedById exKeys :=
  keyedById_of_history [.add (GenSecretKey exS2 "bob"), .add (GenSecretKey exS1 "alice")]

/-- Decryption of a ciphertext of level `L` of Alice and Bob. -/
def exCall (L : ℕ) : DecCall exCtx := ⟨⟨Ct.new L ["bob", "alice"], 64⟩, exKeys, exRev⟩

theorem exCall_ok {L : ℕ} (hL : L < 4) : (exCall L).Ok L :=
  ⟨(Ct.new_wf L _).ragged, hL, exKeys_keyed, exSec, fun id hid => exKeys_sk id (by
    have : (exCall L).ct.ct.parties = {"bob", "alice"} := rfl
    rw [this] at hid
    simpa using hid)⟩

def exRnd : EncRand exCtx := ⟨exS2, exE, exE⟩

theorem exPk : ∃ pk, GenPublicKey exCrs exE (GenSecretKey exS1 "alice") = .ok pk ∧
    pk.id = "alice" ∧ IsPK pk exS1 exE := by
  obtain ⟨pk, hpk, hid, hIs⟩ := C34_public_key exCtx_good (crs := exCrs)
    (exCrs_get 0 (by decide)) rfl exE_small (C34_secret_key exCtx_good exS1_small "alice").1
  exact ⟨pk, hpk, hid, hIs⟩

theorem exProd1 : exCtx.qProd 1 = 697 := by
  simp [Ctx.qProd, prod_range_succ, exCtx, exQ]

theorem exProd2 : exCtx.qProd 2 = 50881 := by
  simp [Ctx.qProd, prod_range_succ, exCtx, exQ]

theorem exProd3 : exCtx.qProd 3 = 4935457 := by
  simp [Ctx.qProd, prod_range_succ, exCtx, exQ]

/-- Encryption after one earlier encryption, decryption after earlier ones of levels 2 and 3: the
message comes back up to `18/64` per coefficient. -/
example : ∃ pk enc enc' ct w dec, GenPublicKey exCrs exE (GenSecretKey exS1 "alice") = .ok pk ∧
    (CEnc.new exPrm).run exEnc [.msg exRnd (fun _ => 1) pk (CCt.new 3 ["alice"] 64)] = .ok enc ∧
    enc.EncryptMsgNewExpand exEnc exPrm exRnd exMsg pk ["bob", "alice"] = .ok (enc', ct) ∧
    Nega.Bdd w 18 ∧ (CDec.new exPrm).run exEnc [exCall 2, exCall 3] = .ok dec ∧
    ∀ π, ∃ dec' m, dec.Decrypt exEnc ct exKeys π = .ok (dec', m) ∧ ∀ j,
      m j = exMsg j + (w.coeff j : ℚ) / 64 := by
  obtain ⟨pk, hpk, hid, hIs⟩ := exPk
  obtain ⟨enc, ct0, w0, h0, -⟩ := C49_EncryptMsgNewExpand exCtx_good exEnc exPrm (hist := [])
    (enc := CEnc.new exPrm) rfl (pk := pk) (o := ["alice"]) (by rw [hid]; decide) (by decide) hIs exRnd
    (fun _ => 1) exS2_bdd exS1_bdd exE_bdd exE_bdd exE_bdd
  have hrun : (CEnc.new exPrm).run exEnc [.msg exRnd (fun _ => 1) pk (CCt.new 3 ["alice"] 64)] =
      .ok enc := by
    unfold CEnc.run
    unfold CEnc.EncryptMsgNewExpand at h0
    rw [show (CCt.new 3 ["alice"] 64 : CCt exCtx) = CCt.new exCtx.lq ["alice"] exPrm.scale from rfl, h0]
    rfl
  have hfit : ∀ j, 2 * (|(exEnc.encode exMsg exPrm.scale).coeff j| + (2 * exCtx.N + 1) * 2) <
      exCtx.qProd (lowest exCtx.lq [2, 3]) := by
    intro j
    rw [show exPrm.scale = 64 from rfl, exMsg_encode, show lowest exCtx.lq [2, 3] = 2 from rfl, exProd2]
    show 2 * (|(![1024, 0, -128, 1] : Fin 4 → ℤ) j| + (2 * (4 : ℕ) + 1) * 2) < _
    fin_cases j <;> decide
  obtain ⟨enc', ct, w, dec, h1, h2, h3, h4⟩ := C49_round_trip exCtx_good exEnc exPrm hrun
    (dhist := [exCall 2, exCall 3]) (levels := [2, 3])
    (.cons (exCall_ok (by decide)) (.cons (exCall_ok (by decide)) .nil)) (pk := pk) (s := exSec)
    (o := ["bob", "alice"]) (by rw [hid]; decide) (by decide) (by rw [hid]; exact hIs) exRnd exMsg
    exS2_bdd (by rw [hid]; exact exS1_bdd) exE_bdd exE_bdd exE_bdd exKeys_keyed exKeys_sk hfit
  refine ⟨pk, enc, enc', ct, w, dec, hpk, hrun, h1, h2, h3, fun π => ?_⟩
  obtain ⟨dec', h5⟩ := h4 π
  refine ⟨dec', _, h5, fun j => ?_⟩
  show (((exEnc.encode exMsg 64).coeff j + w.coeff j : ℤ) : ℚ) / 64 = _
  rw [exMsg_encode]
  fin_cases j <;> simp [exMsg] <;> ring

/-- After a decryption of level 1 the same ciphertext decrypts to another message. -/
example : ∃ pk enc' ct, GenPublicKey exCrs exE (GenSecretKey exS1 "alice") = .ok pk ∧
    (CEnc.new exPrm).EncryptMsgNew exEnc exPrm exRnd exMsg pk = .ok (enc', ct) ∧
    ∃ dec dec' dec'' msg msg', (CDec.new exPrm).run exEnc [exCall 1] = .ok dec ∧
      dec.Decrypt exEnc ct exKeys exRev = .ok (dec', msg) ∧
      (CDec.new exPrm).Decrypt exEnc ct exKeys exRev = .ok (dec'', msg') ∧ msg ≠ msg' := by
  obtain ⟨pk, hpk, hid, hIs⟩ := exPk
  obtain ⟨enc', ct, w, h1, h2, h3, h4, h5, h6⟩ := C49_EncryptMsgNewExpand exCtx_good exEnc exPrm
    (hist := []) (enc := CEnc.new exPrm) rfl (pk := pk) (o := ["alice"]) (by rw [hid]; decide)
    (by decide) hIs exRnd exMsg exS2_bdd exS1_bdd exE_bdd exE_bdd exE_bdd
  have hw : ∀ j, |w.coeff j| ≤ 18 := h5
  have h7 := h6 exSec (by rw [hid]; rfl)
  rw [show exPrm.scale = 64 from rfl, exMsg_encode] at h7
  have h4 : ct.scale = 64 := h4
  refine ⟨pk, enc', ct, hpk, ?_, ?_⟩
  · rw [(C49_EncryptMsgNew exEnc exPrm _ pk exRnd exMsg).2 (by rw [hid]; decide), hid]
    exact h1
  · refine C43_history_dependent exCtx_good exEnc exPrm (hist := [exCall 1]) (levels := [1])
      (.cons (exCall_ok (by decide)) .nil) h2.ragged (by decide) exKeys_keyed (s := exSec)
      (fun id hid' => exKeys_sk id (by rw [h3] at hid'; simp at hid'; simp [hid'])) h7 (j := (0 : Fin 4))
      ?_ ?_ (by rw [h4]; exact exEnc_inj) exRev
    · intro j
      rw [show min exCtx.lq exCtx.lq = 3 from rfl, exProd3]
      have h := abs_le.mp (hw j)
      show 2 * |(![1024, 0, -128, 1] : Fin 4 → ℤ) j + w.coeff j| < _
      have hb : |(![1024, 0, -128, 1] : Fin 4 → ℤ) j| ≤ 1024 := by fin_cases j <;> decide
      have := abs_add_le ((![1024, 0, -128, 1] : Fin 4 → ℤ) j) (w.coeff j)
      have := hw j
      push_cast
      linarith
    · rw [show min exCtx.lq (lowest exCtx.lq [1]) = 1 from rfl, exProd1]
      have h := abs_le.mp (hw (0 : Fin 4))
      show ((697 : ℕ) : ℤ) < 2 * |1024 + w.coeff (0 : Fin 4)|
      rw [abs_of_pos (by linarith [h.1])]
      push_cast
      linarith [h.1]

/-- C43 on a ciphertext that fits: a level-1 history does not change the result. -/
example (π : Sched) {m : Nega exCtx.N ℤ} (hm : (exCall 3).ct.ct.Carries exSec 3 m)
    (hfit : ∀ j, 2 * |m.coeff j| < 697) :=
  C43_history_independent exCtx_good exEnc exPrm (hist := [exCall 1, exCall 2]) (levels := [1, 2])
    (.cons (exCall_ok (by decide)) (.cons (exCall_ok (by decide)) .nil))
    (exCall_ok (L := 3) (by decide)).1 (by decide) exKeys_keyed (s := exSec)
    (fun id hid => exKeys_sk id (by
      have : (exCall 3).ct.ct.parties = {"bob", "alice"} := rfl
      rw [this] at hid
      simpa using hid)) hm
    (by rw [show min 3 (lowest exCtx.lq [1, 2]) = 1 from rfl, exProd1]; exact hfit) π

end MK
