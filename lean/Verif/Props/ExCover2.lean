import Verif.Props.ExCover
import Verif.Props.ExHeapLr
import Verif.Props.ExIeee
import Verif.Props.ExCBench
import Verif.Props.ExHelpers
import Verif.Props.ExKsMem
import Verif.Props.ExCDec
import Verif.Props.ExTestMore
import Verif.Props.ExTestRlwe
import Verif.Props.ExLr
import Verif.Props.ToyNum
import Verif.Props.LrSetupDirect
import Verif.Props.StdDev
import Verif.Props.FlInt

/-!
# Concrete instances, programs and tests

Instances of theorems whose neighbouring examples only go through a corollary.
-/

noncomputable section

namespace MK.Word

/-- A work array full of 7 and one full of 0, different previous contents of the target. -/
example : ∃ out out', (newExtender wQ wP).ModUpQtoP Fl.double stale 2 1 (residues wQ 1000000) [1, 2, 3, 4] =
      .ok out ∧
    (newExtender wQ wP).ModUpQtoP Fl.double (List.replicate 32 0) 2 1 (residues wQ 1000000) [5, 6, 7, 8] =
      .ok out' ∧ out.take 2 = out'.take 2 := by
  obtain ⟨out, d, h1, -⟩ := C31_ModUpQtoP (F := Fl.double) (Q := wQ) (P := wP)
    (levelQ := 2) (levelP := 1) (y := stale) (polQ := residues wQ 1000000) (polP := [1, 2, 3, 4])
    (X := 1000000) Fl.double_ok wQ_mod (by decide) wP_mod (by decide) (by decide) (by decide) rfl
    (by decide) (by decide) (residues_lt wQ_mod _) (by decide)
    (fun i q x _ hq hx => by
      rw [residues_spec _ _ _ _ _ hq hx]; exact Nat.mod_modEq _ _)
  obtain ⟨out', h2, h3⟩ := (C59_ModUp_scratch Fl.double (newExtender wQ wP)
    (y' := List.replicate 32 0) (pool' := [5, 6, 7, 8]) (by decide) (by decide) 2 1 _).1 out h1
  exact ⟨out, out', h1, h2, h3⟩

example : FloatOK (fquot Fl.double) := C48_floatOK Fl.double_ok

end MK.Word

namespace MK.Utils

example : ∃ r, interfaceMod (.u64 1000) 17 = .ok r ∧ r < 17 ∧ r ≡ 1000 [MOD 17] :=
  C45_interfaceMod_uint64 (by norm_num) 1000

example : (interfaceMod .other 17).panics := C45_interfaceMod_other 17

example : scaleUpVecExactBigFloat id [] 8 [17, 97] [[], []] = .error .indexRange :=
  C60_scaleUpVecExactBigFloat_empty _ _ _ _

/-- A quarter at scale `2^20` modulo a 40-bit prime. -/
example : ∃ z : ℤ, (scaleUpExact Fl.double (1 / 4) (2 ^ 20) 0x4000170001 : ℤ) ≡ z [ZMOD (0x4000170001 : ℕ)] ∧
    |scaleDown Fl.double z (2 ^ 20) - 1 / 4| ≤ 1 / 2 ^ 20 + (|(1 / 4 : ℚ)| * 7 + 4) / 2 ^ 53 :=
  C60_roundtrip Fl.double_ok (1 / 4) (by norm_num) (by norm_num)

example := (C60_GenSecretKey_distribution).2.2.1

example := C60_StandardDeviation_equal Lr.sqrt53_ok (scale := 2 ^ 38) (by positivity)

end MK.Utils

namespace MK

/-! ### mkrlwe -/

example (e : ℕ → Nega pnCtx.N ℤ) : Go.panics (GenRotationKey pnCrs (RPoly.new 21) e (-1)
    (GenSecretKey pnS "alice")) :=
  C35_minus_one_panics (logN := 15) (by norm_num) pn_N _ _ _ _

example : Fl.double.ceilQuot 2048 512 = ⌈((2048 : ℕ) : ℚ) / ((512 : ℕ) : ℚ)⌉ :=
  C64_ceilQuot Fl.double_ok (by norm_num) (by norm_num) (by norm_num)

example : Fl.double.ceilQuot 21 2 = Word.ceilDiv 21 2 :=
  C64_ceilDiv Fl.double_ok (by norm_num) (by norm_num) (by norm_num)

/-- Alice's ciphertext twice, with a hoisted form for the first operand and without. -/
example : ∃ H e1 e2 r1 r2,
    Ev.new.MulRelinHoistedNew exPrm exA exA (some H) none exRlkSet exFwd = .ok (e1, r1) ∧
    Ev.new.MulRelinHoistedNew exPrm exA exA none none exRlkSet exRev = .ok (e2, r2) ∧
    r1.ct.Same r2.ct ∧ r1.scale = r2.scale := by
  obtain ⟨_, H, -, -, h⟩ := C23_HoistedForm exCtx_good Ev.new_ok (a := exA) exCtA_wf exFwd
  have hk : HasKeys exRlkSet (exA.ct.parties ∪ exA.ct.parties) exRlk :=
    exHas (by rw [show exA.ct.parties = _ from exCtA_parties]; decide)
  exact ⟨H, C23_MulRelinHoistedNew_nil exCtx_good (prm := exPrm) Ev.new_ok Ev.new_ok exCtA_wf exCtA_wf
    (by decide) (exCrs_get (-1) (by decide)) hk hk (fun H' h' => by cases h'; exact h) (fun _ h' => by cases h')
    (fun _ h' => by cases h') (fun _ h' => by cases h') exBy3 exFwd exRev⟩

/-- The keys of Alice in the memory that existed before. -/
example (s e : Nega exCtx.N ℤ) := C69_key_pair (C69_start 2 exU exPMem).1 s e "dave"

example (m : Nega exCtx.N ℤ) {L : ℕ} (hL : L < 4) (hm : (exCall L).ct.ct.Carries exSec L m) (π : Sched) :
    ∃ dec', (CDec.new exPrm).Decrypt exEnc (exCall L).ct exKeys π =
      .ok (dec', exEnc.decode (centre (exCtx.qProd (min L exCtx.lq)) m) 64) := by
  obtain ⟨dec', h, -⟩ := C43_Decrypt exCtx_good exEnc (dec := CDec.new exPrm) rfl (exCall_ok hL).1
    (by show L < 4; exact hL) exKeys_keyed (s := exSec)
    (fun id hid => exKeys_sk id (by
      have : (exCall L).ct.ct.parties = {"bob", "alice"} := rfl
      rw [this] at hid
      simpa using hid)) hm π
  exact ⟨dec', h⟩

example : ∀ i ≤ 3, (EncodeMsgNew exEnc exPrm exMsg).1.val exCtx.nttQ i =
    Nega.red (exCtx.q i) ⟨(![1024, 0, -128, 1] : Fin 4 → ℤ)⟩ := by
  intro i hi
  rw [(C49_EncodeMsgNew exEnc exPrm exMsg).2.2.2 i hi, show exPrm.scale = 64 from rfl, exMsg_encode]
  rfl

/-! ### Tests -/

/-- The verdict for the noise of `pnX`, whatever the slack. -/
example (b : Bool) (slack : ℕ) : testDecrypt b slack 15 pnCrs (RPoly.new 21) pnX.s pnX.e pnX.u pnX.e0
      pnX.e1 ["tetsUser1", "0"] ["0", "tetsUser1"] ["tetsUser1"] =
    .ok (decide (Nat.size ((∑ j, ((pnX.u * pnX.e + pnX.e0 + pnX.e1 * pnX.s).coeff j).natAbs) %
      ∏ i ∈ Finset.range pnCtx.nQ, pnCtx.q i) ≤ slack + 15)) := by
  have h1 : 19 ≤ 19 * (2 * pnCtx.N + 1) := by show 19 ≤ 19 * (2 * 32768 + 1); norm_num
  have h2 : Above pnCtx (2 * (19 * (2 * pnCtx.N + 1)) + 1) :=
    pn_above.mono (by show 2 * (19 * (2 * 32768 + 1)) + 1 ≤ 2 ^ 30; norm_num)
  have h3 := pnX_ok.bdd
  generalize 19 * (2 * pnCtx.N + 1) = B at h1 h2 h3
  exact C68_Decrypt_verdict (C := pnCtx) (s := pnX.s) (e := pnX.e) (u := pnX.u) (e0 := pnX.e0)
    (e1 := pnX.e1) pnCtx_good pnCtx_fits h1 h2 pnCrs_zero rfl _ pnS_small pnE_bdd h3 b slack 15 (List.Perm.swap _ _ _) (List.Perm.refl _) (List.Perm.refl _)

example : testSet tpSet = .ok true := tpSet_passes

end MK

namespace MK.CT

open Lr

example : (userList 4).length = 4 ∧ (userList 4).Nodup ∧ "0" ∉ userList 4 := C73_userList 4

/-- The parameters of mkckks_test.go with the CRS of `NewParameters` for some samples. -/
def cvPrm : CPar taCtx := ⟨newCRS 15 fun k _ => ⟨⟨14, fun i _ => (k : ZMod (taCtx.q i)), true⟩, RPoly.new taCtx.nP⟩,
  2 ^ 54, Fl.double, fun _ => 0⟩

theorem cvPrm_crs : CrsFor cvPrm.crs [] := ⟨⟨_, rfl, rfl⟩, ⟨_, rfl⟩, by simp⟩

def cvTern (a : ℕ) : Nega taCtx.N ℤ := ⟨fun j => ((j.val + a) % 3 : ℕ) - 1⟩
def cvErr (a : ℕ) : Nega taCtx.N ℤ := ⟨fun j => ((j.val + a) % 39 : ℕ) - 19⟩

theorem cvTern_bdd (a : ℕ) : (cvTern a).Bdd 1 := fun j => by
  show |(((j.val + a) % 3 : ℕ) : ℤ) - 1| ≤ 1
  rw [abs_le]; omega

theorem cvErr_bdd (a : ℕ) : (cvErr a).Bdd 19 := fun j => by
  show |(((j.val + a) % 39 : ℕ) : ℤ) - 19| ≤ 19
  rw [abs_le]; omega

/-- Every party draws its own samples. -/
def cvRnd (id : String) : PartyRand taCtx :=
  ⟨cvTern id.length, cvErr 1, cvTern 2, fun k => cvErr k, fun k => cvErr (k + 1), fun k => cvErr (k + 2),
    fun t k => cvErr (t + k), RPoly.new 14, ⟨RPoly.new 14, RPoly.new taCtx.nP⟩, fun _ => RPoly.new 14⟩

theorem cvRnd_ok (id : String) : (cvRnd id).Ok 19 := ⟨cvTern_bdd _, cvErr_bdd _, cvTern_bdd _,
  fun _ => cvErr_bdd _, fun _ => cvErr_bdd _, fun _ => cvErr_bdd _, fun _ _ => cvErr_bdd _⟩

def cvOrder : List String := ["user2", "user0", "user3", "user1"]

/-- `TestCKKS` and `BenchmarkMKCKKS` with four users. -/
example (t0 : TestRand taCtx) (t : ℕ → TestRand taCtx) :
    ∃ ok, testCKKS (stdEncoder taCtx) cvPrm 14 cvRnd cvOrder 4 t0 t = .ok ok :=
  C73_shipped_TestCKKS (fun m sc => by simp [stdEncoder]; rfl) rfl Fl.double_ok cvPrm_crs
    (by decide) (fun id _ => cvRnd_ok id) t0 t

example (d : ℕ → ℕ → Draw taCtx) (π πm : ℕ → ℕ → Sched) (iters : ℕ → ℕ) :
    benchmarkMKCKKS (stdEncoder taCtx) cvPrm cvRnd cvOrder 4 d π πm iters = .ok () :=
  C73_shipped_Benchmark rfl Fl.double_ok cvPrm_crs (by decide) (fun id _ => cvRnd_ok id) d π πm iters

/-- For other errors and messages `TestCKKS` fails. -/
example (π : ℕ → Sched) (πo π' : Sched) := C73_shipped_TestCKKS_can_fail (prm := cvPrm) rfl Fl.double_ok
  cvPrm_crs (maxUsers := 4) (by norm_num) (by decide : cvOrder.Perm (userList 4)) (fun id _ => cvRnd_ok id)
  π πo π'

example (E : Encoder exCtx (List ℂ)) (d : ℕ → Draw exCtx) (π : ℕ → Sched) (πd πh πo π' : Sched) :=
  C72_RotHoisted_panics 3 exRkSet E exPrm ⟨KeySet.new, KeySet.new, RelinKeySet.new, exRkSet⟩
    (CEnc.new exPrm) (CDec.new exPrm) Ev.new ["alice", "bob"] d π πd πh πo π'

end MK.CT

namespace MK.Lr

open Finset

/-! ### Programs -/

example : shapeMb.slotsPerData = 2 ^ 3 := (C40_mask_width shapeMb).mpr ⟨by decide, by decide⟩

/-- Two groups of three records, the second in other units. -/
example : ∃ out out', Normalised 2 2 3 3 (fun j => j ≠ 1) [[1, 5, 0], [3, 6, 4], [4, 7, 8]] out ∧
    Normalised 2 2 3 3 (fun j => j ≠ 1) [[12, 5, 0], [16, 6, 4], [18, 7, 8]] out' ∧
    colMean out 2 0 = 0 ∧ colVar out 2 2 0 = 1 ∧ ∀ i < 3, entry out' i 0 = entry out i 0 := by
  obtain ⟨out, -, h⟩ := C53_normalise (pop := 2) (den := 2) (numFeature := 3) (numData := 3)
    (sel := fun j => j ≠ 1) (data := [[1, 5, 0], [3, 6, 4], [4, 7, 8]])
    (fun i hi j hj => by interval_cases i <;> simpa using hj)
    (fun i hi j hj _ => by interval_cases i <;> simpa using hj)
  obtain ⟨out', -, h'⟩ := C53_normalise (pop := 2) (den := 2) (numFeature := 3) (numData := 3)
    (sel := fun j => j ≠ 1) (data := [[12, 5, 0], [16, 6, 4], [18, 7, 8]])
    (fun i hi j hj => by interval_cases i <;> simpa using hj)
    (fun i hi j hj _ => by interval_cases i <;> simpa using hj)
  obtain ⟨s1, s2, -⟩ := C53_standard h (by norm_num) (by norm_num) (j := 0) (by norm_num) rfl
    ⟨0, by norm_num, 1, by norm_num, by norm_num [entry]⟩
  refine ⟨out, out', h, h', s1, s2, fun i hi => C53_units h h' (by norm_num) (by norm_num) rfl
    (a := 2) (b := 10) (by norm_num) (fun i hi => ?_) i hi⟩
  have hi : i < 3 := by omega
  interval_cases i <;> norm_num [entry]

/-- lr.go and lr_minibatch.go at degree 32 on a heap with other objects. -/
example (w : Heap smCtx) := C58_lr_accuracy smOk.main w

example (w : Heap smCtx) := C58_mb_accuracy smMbOk.main w

end MK.Lr
