import Verif.Props.TestMore
import Verif.Props.ExTest
import Verif.TestParams

/-!
# Concrete instances for C68

The remaining tests of mkrlwe/mkrlwe_test.go at the parameter set of lr.go, at `PN16QP1761` of the
test file and at `PN14QP439` of mkckks/mkckks_test.go.
-/

noncomputable section

namespace MK

open Finset

def pnX : Samples pnCtx := ⟨pnS, pnE, -pnS, -pnE, pnE⟩

theorem pnX_ok : pnX.Ok := ⟨pnS_bdd, pnE_bdd, pnS_bdd.neg, pnE_bdd.neg, pnE_bdd⟩

def pnY : Samples pnCtx := ⟨-pnS, -pnE, pnS, pnE, -pnE⟩

theorem pnY_ok : pnY.Ok := ⟨pnS_bdd.neg, pnE_bdd.neg, pnS_bdd, pnE_bdd, pnE_bdd.neg⟩

/-- Twenty-one bits above `logN` suffice for a decryption, in both subtests and all orders. -/
example (b : Bool) : testDecrypt b 21 15 pnCrs (RPoly.new 21) pnX.s pnX.e pnX.u pnX.e0 pnX.e1
    ["tetsUser1", "0"] ["0", "tetsUser1"] ["tetsUser1"] = .ok true :=
  C68_Decrypt pn_N pnCtx_good pnCtx_fits
    (pn_above.mono (by show 38 * (2 * 32768 + 1) + 1 ≤ 2 ^ 30; norm_num)) pnCrs_zero rfl _ pnX_ok b
    (by show 19 * (2 * 32768 + 1) < 2 ^ 21; norm_num) (List.Perm.swap _ _ _) (List.Perm.refl _)
    (List.Perm.refl _)

/-- The nine of the test do not. -/
example : ∃ x : Samples pnCtx, x.Ok ∧ ∀ (b : Bool) (oC oI oS : List String),
    oC.Perm ["0", "tetsUser1"] → oI.Perm ["0", "tetsUser1"] → oS.Perm ["tetsUser1"] →
    testDecrypt b 9 15 pnCrs (RPoly.new 21) x.s x.e x.u x.e0 x.e1 oC oI oS = .ok false :=
  C68_Decrypt_can_fail pn_N (by norm_num) pnCtx_good pnCtx_fits
    (pn_above.mono (by show 38 * (2 * 32768 + 1) + 1 ≤ 2 ^ 30; norm_num))
    (lt_trans (by show 19 * (2 * 32768 + 1) * 32768 < 2 ^ 55; norm_num) pn_prod) pnCrs_zero rfl _

example : testDecryptMultikey 21 22 15 pnCrs (RPoly.new 21) pnS pnX pnY ["user2", "user1"]
    ⟨["0", "user1"], ["user1", "0"], ["user2", "user1", "tetsUser1"]⟩
    ⟨["0", "user2"], ["user2", "0"], ["tetsUser1", "user1", "user2"]⟩
    ⟨["user1", "0", "user2"], ["user2", "user1", "0"], ["user1", "tetsUser1", "user2"]⟩ =
      .ok (true, true, true) :=
  C68_Multikey pn_N pnCtx_good pnCtx_fits
    (pn_above.mono (by show 76 * (2 * 32768 + 1) + 1 ≤ 2 ^ 30; norm_num)) pnCrs_zero rfl _ pnX_ok
    pnY_ok (by show 19 * (2 * 32768 + 1) < 2 ^ 21; norm_num)
    (by show 38 * (2 * 32768 + 1) < 2 ^ 22; norm_num) (by decide)
    ⟨by decide, by decide, by decide⟩ ⟨by decide, by decide, by decide⟩
    ⟨by decide, by decide, by decide⟩

/-- With the nine and ten of the test all three assertions of the multi-key test can fail. -/
example : ∃ x y : Samples pnCtx, x.Ok ∧ y.Ok ∧ ∀ (ids : List String) (o1 o2 o3 : DecOrd),
    ids.Perm ["user1", "user2"] → o1.Ok ["0", "user1"] → o2.Ok ["0", "user2"] →
    o3.Ok ["0", "user1", "user2"] →
    testDecryptMultikey 9 10 15 pnCrs (RPoly.new 21) pnS x y ids o1 o2 o3 =
      .ok (false, false, false) :=
  C68_Multikey_can_fail pn_N (by norm_num) pnCtx_good pnCtx_fits
    (pn_above.mono (by show 76 * (2 * 32768 + 1) + 1 ≤ 2 ^ 30; norm_num))
    (lt_trans (by show 38 * (2 * 32768 + 1) * 32768 < 2 ^ 55; norm_num) pn_prod) pnCrs_zero rfl _ _

/-- The digits of `pnCtx` are single moduli, at every level. -/
theorem pn_block_at {L : ℕ} (hL : L < 21) (k : ℕ) :
    2 * blockSetProd pnCtx L k ≤ 2 * 0x80000000080001 := by
  have hq : ∀ i < 21, pnQ i ≤ 0x80000000080001 := by decide +kernel
  have ha : pnCtx.alpha = 1 := rfl
  refine Nat.mul_le_mul_left 2 ?_
  have hs : (range (L + 1)).filter (· / pnCtx.alpha = k) ⊆ {k} := by
    intro i hi
    rw [mem_filter, ha, Nat.div_one] at hi
    simp [hi.2]
  unfold blockSetProd
  rcases subset_singleton_iff.mp hs with h | h
  · rw [h, prod_empty]; norm_num
  · rw [h, prod_singleton]
    have : k ∈ (range (L + 1)).filter (· / pnCtx.alpha = k) := by rw [h]; simp
    rw [mem_filter, mem_range] at this
    exact hq k (by omega)

/-- `DecomposeMaxLevel`: level 19 with the twenty-one digits of level 20. -/
example : testDecompose 19 21 10 15 pnCrs (RPoly.new 21) (RPoly.new 21) pnS pnE pnS pnE pnE
    (fun _ => pnE) = .ok true :=
  C68_Decompose pn_N pnCtx_good pnCtx_fits (pn_above.mono (by norm_num)) pnCrs_zero rfl _ _
    _ _ _ pnS_small pnE_bdd (fun _ => pnE_bdd) (L := 19) (by decide) (by decide)
    (fun k _ => pn_block_at (by norm_num) k) (by decide +kernel)

/-- `DecomposeMinLevel`. -/
example : testDecompose 0 1 10 15 pnCrs (RPoly.new 21) (RPoly.new 21) pnS pnE pnS pnE pnE
    (fun _ => pnE) = .ok true :=
  C68_Decompose pn_N pnCtx_good pnCtx_fits (pn_above.mono (by norm_num)) pnCrs_zero rfl _ _
    _ _ _ pnS_small pnE_bdd (fun _ => pnE_bdd) (L := 0) (by decide) (by decide)
    (fun k _ => pn_block_at (by norm_num) k) (by decide +kernel)

/-! ### The Hadamard product at `PN16QP1761` of the test file -/

/-- A CRS sample without structure. -/
def tpSample (idx : ℤ) : SwKey tpCtx := fun k =>
  ⟨⟨34, fun _ j => ((idx + 3 * k + j.val : ℤ) : ZMod _), false⟩,
   ⟨4, fun _ j => ((idx + 5 * k + j.val : ℤ) : ZMod _), false⟩⟩

def tpCrs : CRS tpCtx := newCRS 16 tpSample

theorem tpCrs_zero : tpCrs.get? 0 = some (tpSample 0) := by rfl

def tpS : Nega tpCtx.N ℤ := ⟨fun j => 1 - (j.val % 3 : ℕ)⟩
def tpE : Nega tpCtx.N ℤ := ⟨fun j => (j.val % 39 : ℕ) - 19⟩

theorem tpS_bdd : tpS.Bdd 1 := fun j => by
  show |(1 : ℤ) - ((j.val % 3 : ℕ) : ℤ)| ≤ 1
  rw [Int.abs_eq_natAbs]; omega

theorem tpE_bdd : tpE.Bdd 19 := fun j => by
  show |((j.val % 39 : ℕ) : ℤ) - 19| ≤ 19
  rw [Int.abs_eq_natAbs]; omega

theorem tp_above : Above tpCtx (2 * 2 ^ 24 + 1) where
  q := by
    have : ∀ i < 34, 2 * 2 ^ 24 + 1 < tpQ i := by decide +kernel
    exact this
  p := by
    have : ∀ i < 4, 2 * 2 ^ 24 + 1 < tpP i := by decide +kernel
    exact this

theorem tpS_small : Small tpCtx tpS :=
  small_of_above tpCtx_good (B := 19) (tp_above.mono (by norm_num)) (tpS_bdd.mono (by norm_num))

/-- Blocks of two moduli: at most `2^101`. -/
theorem tp_block : ∀ k < tpCtx.beta tpCtx.lq, 2 * blockSetProd tpCtx tpCtx.lq k ≤ 2 ^ 101 + 2 ^ 80 := by
  have hβ : tpCtx.beta tpCtx.lq = 17 := rfl
  rw [hβ]
  have h : ∀ k < 17, 2 * ∏ i ∈ (range 34).filter (· / 2 = k), tpQ i ≤ 2 ^ 101 + 2 ^ 80 := by
    decide +kernel
  exact h

/-- At this set the ten of the test suffices, whatever the CRS and the samples. -/
example : testHadamardProduct 10 16 tpCrs (RPoly.new 34) (RPoly.new 34) tpS tpE tpS tpE tpE
    (fun _ => tpE) = .ok true :=
  C68_Hadamard (B := 2 ^ 24) (by show 65536 = _; norm_num) tpCtx_good tpCtx_fits (by norm_num)
    tp_above tpCrs_zero rfl _ _ _ _ _ tpS_small tpE_bdd (fun _ => tpE_bdd) tp_block
    (by decide +kernel) (by norm_num)

/-! ### The Hadamard product at `PN14QP439` of mkckks -/

theorem tb_above : Above tbCtx (2 * 2 ^ 36 + 1) where
  q := by
    have : ∀ i < 6, 2 * 2 ^ 36 + 1 < tbQ i := by decide +kernel
    exact this
  p := by
    have : ∀ i < 2, 2 * 2 ^ 36 + 1 < tbP i := by decide +kernel
    exact this

theorem tb_block : ∀ k < tbCtx.beta tbCtx.lq, 2 * blockSetProd tbCtx tbCtx.lq k ≤ 2 ^ 60 := by
  have hβ : tbCtx.beta tbCtx.lq = 6 := rfl
  rw [hβ]
  have h : ∀ k < 6, 2 * ∏ i ∈ (range 6).filter (· / 1 = k), tbQ i ≤ 2 ^ 60 := by
    decide +kernel
  exact h

/-- With single-modulus blocks as large as the special primes the ten of the test does not. -/
example : ∃ a : SwKey tbCtx, FullLen a ∧ ∀ crs : CRS tbCtx, crs.get? 0 = some a →
    ∃ (x : Samples tbCtx) (esg : ℕ → Nega tbCtx.N ℤ), x.Ok ∧ (∀ k, (esg k).Bdd 19) ∧
      ∀ pool poolQ : RQ tbCtx,
        testHadamardProduct 10 14 crs pool poolQ x.s x.e x.u x.e0 x.e1 esg = .ok false :=
  C68_Hadamard_can_fail (B := 2 ^ 36) (by show 16384 = _; norm_num) tbCtx_good tbCtx_fits
    (by norm_num) tb_above tb_block (by decide +kernel)
    (by
      have h : ∏ i ∈ range tbCtx.nQ, tbCtx.q i = ∏ i ∈ range 6, tbQ i := rfl
      rw [h]
      decide +kernel)
    (by show 2 ≤ 16384; norm_num) (by decide +kernel)

end MK
