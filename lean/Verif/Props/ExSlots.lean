import Verif.Props.Slots
import Verif.Props.ExEval

/-!
# Concrete instances for C37 and the slot-level theorems
-/

noncomputable section

namespace MK

open Finset

/-- C37: ring degree 4, two slots. The polynomial `1 + 2X - 5X³`, rotated by `3`. -/
example : slot (Int.castRingHom ℂ) (Nega.auto (5 ^ 3) (⟨![1, 2, 0, -5]⟩ : Nega 4 ℤ)) 0 =
    slot (Int.castRingHom ℂ) (⟨![1, 2, 0, -5]⟩ : Nega 4 ℤ) 1 :=
  C37_rotation (logN := 2) (by decide) (by decide) _ _ 3 0

example : slot Complex.ofRealHom (Nega.auto 7 (⟨![1, 2, 0, Real.sqrt 2]⟩ : Nega 4 ℝ)) 1 =
    starRingEnd ℂ (slot Complex.ofRealHom (⟨![1, 2, 0, Real.sqrt 2]⟩ : Nega 4 ℝ) 1) :=
  C37_conjugation _ 1

/-- The two slots of a polynomial other than zero do not both vanish. -/
example (m : Nega 4 ℝ) (h : m ≠ 0) :
    ¬ ∀ j < 4 / 2, slot Complex.ofRealHom m j = slot Complex.ofRealHom (0 : Nega 4 ℝ) j :=
  fun hs => h (C37_slots_injective (logN := 2) (by decide) (by decide) m 0 hs)

/-- C37, C24 at the evaluator: rotation by `-3` maps slot 1 to slot 0 and slot 0 to slot 1. -/
example : ∃ ev' r m m', Ev.new.RotateNew exPrm exAB (-3) exRkSet exRev = .ok (ev', r) ∧
    exAB.ct.Carries exSec 3 m ∧ r.ct.Carries exSec 3 m' ∧
    exCtx.P * ‖islot m' 0 - islot m 1‖ ≤ 4 * ((rotCount exPrm.crs (slotIdx exCtx.N (-3)) *
        (exAB.ct.parties.card * extNoise exCtx 3 194 1 2) : ℤ) : ℝ) ∧
    exCtx.P * ‖islot m' 1 - islot m 0‖ ≤ 4 * ((rotCount exPrm.crs (slotIdx exCtx.N (-3)) *
        (exAB.ct.parties.card * extNoise exCtx 3 194 1 2) : ℤ) : ℝ) := by
  obtain ⟨m, hm⟩ := exists_carries exCtx_good exAB.ct exSec (L := 3) (by decide)
  obtain ⟨ev', r, m', h1, _, _, _, _, h2, h3⟩ :=
    C37_RotateNew_slots exCtx_N (by decide) exCtx_good exCtx_fits (prm := exPrm) Ev.new_ok
    (ct := exAB) (L := 3) (by decide) exCtAB_wf (-3) (rkSet := exRkSet) (rk := fun _ => exRk)
    (a := fun i => exSample i)
    (fun idx h => by rw [exNeeds h]; exact exKeysAt) (s := exSec) (D := 194) (T := 1) (B := 2)
    (fun idx h => by
      rw [exNeeds h]
      exact ⟨⟨fun _ _ => exE, fun _ _ _ => exE_bdd, fun id _ => (exRot id).choose_spec.2.2.2⟩,
        fun id _ => exSec_bdd id⟩) (by decide) exRev hm
  exact ⟨ev', r, m, m', h1, hm, h2, h3 0, h3 1⟩

/-- Product of Alice's and Bob's ciphertexts on slots; 73 is dropped. -/
example : ∃ ev' rlk' out ma mb m', Ev.new.MulRelinNew exPrm exA exB false exRlkSet exRev =
      .ok (ev', rlk', out) ∧ exA.ct.Carries exSec 3 ma ∧ exB.ct.Carries exSec 2 mb ∧
    out.ct.Carries exSec 1 m' ∧
    ∀ j, exCtx.P * ‖((73 : ℕ) : ℂ) * islot m' j - islot ma j * islot mb j‖ ≤
      4 * ((mulNoise exCtx 2 exA.ct.parties.card exB.ct.parties.card 194 194 194 1 2 +
        exCtx.P * rescaleErr exCtx 2 1 (exA.ct.parties ∪ exB.ct.parties).card 1 : ℤ) : ℝ) := by
  obtain ⟨ma, hma⟩ := exists_carries exCtx_good exA.ct exSec (L := 3) (by decide)
  obtain ⟨mb, hmb⟩ := exists_carries exCtx_good exB.ct exSec (L := 2) (by decide)
  obtain ⟨ev', rlk', out, m', h1, _, _, _, h4, h5⟩ := C21_MulRelinNew_slots exCtx_good exCtx_fits
    (prm := exPrm) Ev.new_ok (a := exA) (b := exB) false (by simp) exCtA_wf exCtB_wf (by decide)
    (by decide) (exCrs_get (-1) (by decide)) (exRlkFor exAB_union.le) (exRelinFor _) exMax
    (exRelinBdd _) exBy2 exRev hma hmb
  refine ⟨ev', rlk', out, ma, mb, m', h1, hma, hmb, h4, fun j => ?_⟩
  have := h5 j
  rw [prod_range_one] at this
  exact this

/-- Rescaling on slots: two moduli are dropped. -/
example {m : Nega exCtx.N ℤ} (hm : exCtAB.Carries exSec 3 m) :=
  C18_Rescale_slots exCtx_good (prm := exPrm) (ev := Ev.new) (ct := ⟨exCtAB, 2 ^ 20⟩) exCtAB_wf
    (by decide) (ms := 64) (by norm_num) (by norm_num) (by decide) exDrop2 (exSec_bdd' _) exRev hm

/-- Sum and difference on slots. -/
example {ma mb : Nega exCtx.N ℤ} (ha : exA.ct.Carries exSec 3 ma) (hb : exB.ct.Carries exSec 2 mb) :=
  C11_C12_slots exCtx_good exBin rfl exRev ha hb

/-- Plaintext product and conjugation on slots. -/
example {m mp : Nega exCtx.N ℤ} (hm : exAB.ct.Carries exSec 3 m)
    (hp : ∀ i ≤ 3, (exPoly 3 9).elem i = Nega.red (exCtx.q i) mp) :=
  C20_MulPtxtNew_slots exCtx_good (prm := exPrm) (ev := Ev.new) (ct := exAB) exCtAB_wf (by decide)
    (exPoly 3 9) 64 exBy1 (exSec_bdd' _) exRev hm hp

example {m : Nega exCtx.N ℤ} (hm : exAB.ct.Carries exSec 3 m) :=
  C37_ConjugateNew_slots exCtx_N exCtx_good exCtx_fits (prm := exPrm) Ev.new_ok (ct := exAB)
  exCtAB_wf (by decide) (ckSet := exCkSet) (ck := exCk)
  (fun id h => exCkSet_get (by rwa [show exAB.ct.parties = _ from exCtAB_parties] at h))
  (exCrs_get (-2) (by decide)) (s := exSec) (fun id _ => (exConj id).choose_spec.2.2) (D := 194)
  (T := 1) (B := 2) (by decide) (fun id _ => exSec_bdd id) (fun _ _ _ => exE_bdd) exRev hm

end MK
