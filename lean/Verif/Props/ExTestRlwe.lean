import Verif.Props.TestRlwe
import Verif.Props.ExTestMore

/-!
# Concrete instances for C74

`TestMKRLWE` at `PN16QP1761` of the test file.
-/

noncomputable section

namespace MK

open Finset

theorem tp_params : RlweParams tpCtx 16 (2 ^ 24) (2 ^ 101 + 2 ^ 80) where
  good := tpCtx_good
  fits := tpCtx_fits
  deg := by show 65536 = _; norm_num
  nQ := by show 2 ≤ 34; norm_num
  above := tp_above
  B1 := by norm_num
  B2 := by show 38 * (2 * 65536 + 1) ≤ 2 ^ 24; norm_num
  B3 := by show 19 * 17 ≤ 2 ^ 24; norm_num
  blk := tp_block
  ext := by decide +kernel
  had := by decide +kernel
  prodQ := by
    have h : ∏ i ∈ range tpCtx.nQ, tpCtx.q i = ∏ i ∈ range 34, tpQ i := rfl
    rw [h]
    decide +kernel
  prodP := by
    have h : ∏ i ∈ range tpCtx.nP, tpCtx.p i = ∏ i ∈ range 4, tpP i := rfl
    rw [h]
    decide +kernel

theorem tpCrs_ok : CrsOk tpCrs := ⟨⟨_, tpCrs_zero, rfl⟩, tpSample (-1), by rfl⟩

theorem tp_one : (1 : Nega tpCtx.N ℤ).Bdd 1 := fun j => by
  rw [Nega.coeff_one]
  split <;> norm_num

theorem tp_zero : (0 : Nega tpCtx.N ℤ).Bdd 19 := fun j => by show |(0 : ℤ)| ≤ 19; norm_num

/-- Samples with a dense secret and dense errors, and the constant 1 for the ephemeral secret. -/
def tpX : Samples tpCtx := ⟨tpS, tpE, 1, -tpE, 0⟩

theorem tpX_ok : tpX.Ok := ⟨tpS_bdd, tpE_bdd, tp_one, tpE_bdd.neg, tp_zero⟩

def tpY : Samples tpCtx := ⟨-tpS, -tpE, -1, -tpE, 0⟩

theorem tpY_ok : tpY.Ok := ⟨tpS_bdd.neg, tpE_bdd.neg, tp_one.neg, tpE_bdd.neg, tp_zero⟩

def tpT : RlweDraw tpCtx where
  kp := tpX
  sw := ⟨tpY, fun _ => tpE⟩
  rs := tpS
  rr := -tpS
  esg := fun _ => tpS
  erg := fun _ => tpE
  eb := fun _ => -tpE
  ed := fun _ => tpE
  ev := fun _ => tpS
  enc1 := tpX
  enc2 := tpY
  dec1 := tpX
  dec2 := tpY
  dec3 := tpX
  mk1 := tpX
  mk2 := tpY
  dcMax := ⟨tpX, fun _ => tpE⟩
  dcMin := ⟨tpY, fun _ => -tpE⟩
  ext := ⟨tpX, fun _ => tpE⟩
  had := ⟨tpY, fun _ => tpE⟩
  poolQ := fun _ => ⟨34, fun _ j => (j.val : ZMod _), true⟩
  poolQP := tpSample 3 0
  pool := fun _ => ⟨34, fun _ j => (j.val : ZMod _), false⟩
  ids := ["user2", "user1"]
  ord := fun i => match i with
    | 0 => ⟨["tetsUser1", "0"], ["0", "tetsUser1"], ["tetsUser1"]⟩
    | 1 => ⟨["0", "tetsUser1"], ["0", "tetsUser1"], ["tetsUser1"]⟩
    | 2 => ⟨["tetsUser1", "0"], ["tetsUser1", "0"], ["tetsUser1"]⟩
    | 3 => ⟨["0", "user1"], ["user1", "0"], ["user2", "user1", "tetsUser1"]⟩
    | 4 => ⟨["0", "user2"], ["user2", "0"], ["tetsUser1", "user1", "user2"]⟩
    | _ => ⟨["user1", "0", "user2"], ["user2", "user1", "0"], ["user1", "tetsUser1", "user2"]⟩

theorem tpT_ok : tpT.Ok where
  kp := tpX_ok
  sw := tpY_ok
  swg _ := tpE_bdd
  rs := tpS_bdd
  rr := tpS_bdd.neg
  esg _ := tpS_bdd.mono (by norm_num)
  erg _ := tpE_bdd
  eb _ := tpE_bdd.neg
  ed _ := tpE_bdd
  ev _ := tpS_bdd.mono (by norm_num)
  enc1 := tpX_ok
  enc2 := tpY_ok
  dec1 := tpX_ok
  dec2 := tpY_ok
  dec3 := tpX_ok
  mk1 := tpX_ok
  mk2 := tpY_ok
  dcMax := tpX_ok
  dcMaxg _ := tpE_bdd
  dcMin := tpY_ok
  dcMing _ := tpE_bdd.neg
  ext := tpX_ok
  extg _ := tpE_bdd
  had := tpY_ok
  hadg _ := tpE_bdd
  ids := by decide
  oC := by decide
  oI := by decide
  oS := by decide
  o3 := ⟨by decide, by decide, by decide⟩
  o4 := ⟨by decide, by decide, by decide⟩
  o5 := ⟨by decide, by decide, by decide⟩

def tpSet : RlweSet := ⟨tpCtx, 16, tpCrs, tpT⟩

theorem tpSet_ok : tpSet.Ok := fun _ => ⟨⟨_, _, tp_params⟩, tpCrs_ok, tpT_ok⟩

/-- Any noise with these ephemeral secrets is small. -/
theorem tp_noise {x y : Samples tpCtx} (hx : x = tpX ∨ x = tpY) (hy : y = tpX ∨ y = tpY) :
    (noiseOf x y).Bdd 38 := by
  have e : ∀ z : Nega tpCtx.N ℤ, z.Bdd 19 → ∀ u : Nega tpCtx.N ℤ, u = 1 ∨ u = -1 → ∀ w : Nega tpCtx.N ℤ,
      (u * z + -tpE + 0 * w).Bdd 38 := by
    intro z hz u hu w
    rw [zero_mul, add_zero]
    rcases hu with rfl | rfl
    · rw [one_mul]; exact (hz.add tpE_bdd.neg).mono (by norm_num)
    · rw [neg_one_mul]; exact (hz.neg.add tpE_bdd.neg).mono (by norm_num)
  rcases hx with rfl | rfl <;> rcases hy with rfl | rfl
  · exact e _ tpE_bdd _ (Or.inl rfl) _
  · exact e _ tpE_bdd _ (Or.inr rfl) _
  · exact e _ tpE_bdd.neg _ (Or.inl rfl) _
  · exact e _ tpE_bdd.neg _ (Or.inr rfl) _

/-- With these samples all tests of the set pass. -/
theorem tpSet_passes : testSet tpSet = .ok true :=
  C74_set_passes (p := tpSet) tp_params tpCrs_ok tpT_ok (by show 2 ^ 24 < 2 ^ 26; norm_num)
    (fun _ => (tpE_bdd.sub tpS_bdd).mono (by norm_num))
    (fun _ => (tpE_bdd.sub tpS_bdd).mono (by norm_num))
    ((tp_noise (Or.inl rfl) (Or.inl rfl)).mono (by norm_num))
    ((tp_noise (Or.inr rfl) (Or.inr rfl)).mono (by norm_num))
    ((tp_noise (Or.inl rfl) (Or.inl rfl)).mono (by norm_num))
    ((tp_noise (Or.inl rfl) (Or.inr rfl)).mono (by norm_num))
    ((tp_noise (Or.inl rfl) (Or.inl rfl)).mono (by norm_num))
    ((tp_noise (Or.inl rfl) (Or.inl rfl)).mono (by norm_num))
    ((tp_noise (Or.inr rfl) (Or.inr rfl)).mono (by norm_num))

/-- `TestMKRLWE` on the set, twice. -/
example : testMKRLWE [tpSet, tpSet] = .ok true := by
  obtain ⟨v, h1, h2⟩ := C74_TestMKRLWE_verdict (ps := [tpSet, tpSet])
    (fun p hp => by simp at hp; subst hp; exact tpSet_ok)
  rw [h1, h2.mpr fun p hp _ => by simp at hp; subst hp; exact tpSet_passes]

/-- The same set with other errors fails. -/
example : ∃ esg ed : ℕ → Nega tpCtx.N ℤ, (∀ k, (esg k).Bdd 19) ∧ (∀ k, (ed k).Bdd 19) ∧
    testMKRLWE ([tpSet] ++ { tpSet with t := { tpT with esg := esg, ed := ed } } :: []) = .ok false :=
  C74_TestMKRLWE_can_fail (ps := [tpSet]) (qs := []) (p := tpSet) (by show 2 ≤ 4; norm_num) tp_params
    tpCrs_ok tpT_ok (fun p hp => by simp at hp; subst hp; exact tpSet_ok) (by simp)

/-- A chain of one special prime: whatever the reference string and the samples, the set is skipped. -/
example (C : Ctx) (h : C.nP = 1) (crs : CRS C) (t : RlweDraw C) :
    testMKRLWE [⟨C, 12, crs, t⟩] = .ok true := by
  rw [C74_TestMKRLWE_skips, List.filter_cons_of_neg (by simp [h])]
  rfl

end MK
