import Verif.Props.Test
import Verif.Shipped

/-!
# Concrete instances for C65

The measurements of mkrlwe/mkrlwe_test.go at the parameter set of lr.go (`N = 2^15`, 21 moduli,
two special primes): the hypotheses of the theorems of `Verif.Props.Test` hold together there.
-/

noncomputable section

namespace MK

open Finset

/-- A CRS sample without structure. -/
def pnSample (idx : ℤ) : SwKey pnCtx := fun k =>
  ⟨⟨21, fun _ j => ((idx + 3 * k + j.val : ℤ) : ZMod _), false⟩,
   ⟨2, fun _ j => ((idx + 5 * k + j.val : ℤ) : ZMod _), false⟩⟩

def pnCrs : CRS pnCtx := newCRS 15 pnSample

theorem pnCrs_zero : pnCrs.get? 0 = some (pnSample 0) := by rfl
theorem pnCrs_neg : pnCrs.get? (-1) = some (pnSample (-1)) := by rfl

theorem pn_above : Above pnCtx (2 ^ 30) where
  q := by
    have : ∀ i < 21, 2 ^ 30 < pnQ i := by decide +kernel
    exact this
  p := by
    have : ∀ i < 2, 2 ^ 30 < pnP i := by decide +kernel
    exact this

theorem pn_N : pnCtx.N = 2 ^ 15 := by show 32768 = _; norm_num

theorem pn_prod : 2 ^ 55 < ∏ i ∈ range pnCtx.nQ, pnCtx.q i := by
  have h : ∏ i ∈ range pnCtx.nQ, pnCtx.q i = ∏ i ∈ range 21, pnQ i := rfl
  rw [h]
  decide +kernel

/-- A secret with coefficients `1, 0, -1, 1, 0, -1, …` and an error with coefficients
`-19, …, 19, -19, …`. -/
def pnS : Nega pnCtx.N ℤ := ⟨fun j => 1 - (j.val % 3 : ℕ)⟩
def pnE : Nega pnCtx.N ℤ := ⟨fun j => (j.val % 39 : ℕ) - 19⟩

theorem pnS_bdd : pnS.Bdd 1 := fun j => by
  show |(1 : ℤ) - ((j.val % 3 : ℕ) : ℤ)| ≤ 1
  rw [Int.abs_eq_natAbs]; omega

theorem pnE_bdd : pnE.Bdd 19 := fun j => by
  show |((j.val % 39 : ℕ) : ℤ) - 19| ≤ 19
  rw [Int.abs_eq_natAbs]; omega

theorem pnS_small : Small pnCtx pnS :=
  small_of_above pnCtx_good (B := 19) (pn_above.mono (by norm_num)) (pnS_bdd.mono (by norm_num))

example : testGenKeyPair pnCrs pnS pnE = .ok true :=
  C65_PKGen pnCtx_good pnCtx_fits (pn_above.mono (by norm_num)) pnCrs_zero pnS pnE_bdd

example : testSwitchKeyGen (RPoly.new 21) pnS (fun _ => pnE) = .ok true :=
  C65_SWKGen pnCtx_good pnCtx_fits (pn_above.mono (by decide)) _ pnS_small (fun _ => pnE_bdd)

example : testRelinKeyGen 6 15 pnCrs (RPoly.new 21) (RPoly.new 21) (RPoly.new 21) QP.new pnS (-pnS)
    (fun _ => pnE) (fun _ => -pnE) (fun _ => pnE) (fun _ => pnE) (fun _ => pnE) =
      .ok (true, true, true) :=
  (C65_RLKGen pn_N pnCtx_good pnCtx_fits (pn_above.mono (by norm_num)) pnCrs_zero pnCrs_neg _ _ _ _
    pnS_small (small_of_above pnCtx_good (B := 19) (pn_above.mono (by norm_num))
      (pnS_bdd.neg.mono (by norm_num)))
    (fun _ => pnE_bdd) (fun _ => pnE_bdd.neg) (fun _ => pnE_bdd) (fun _ => pnE_bdd)
    (fun _ => pnE_bdd)).2

/-- At the parameters of lr.go the `RLKGen` test fails for some admissible samples. -/
example : ∃ esg erg ed ev : ℕ → Nega pnCtx.N ℤ, (∀ k, (esg k).Bdd 19) ∧ (∀ k, (erg k).Bdd 19) ∧
    (∀ k, (ed k).Bdd 19) ∧ (∀ k, (ev k).Bdd 19) ∧
    testRelinKeyGen 5 15 pnCrs (RPoly.new 21) (RPoly.new 21) (RPoly.new 21) QP.new pnS pnS esg erg
      (fun _ => pnE) ed ev = .ok (true, false, false) :=
  C65_RLKGen_can_fail pn_N pnCtx_good pnCtx_fits (pn_above.mono (by norm_num))
    (lt_trans (by show 38 * 32768 < 2 ^ 55; norm_num) pn_prod) pnCrs_zero pnCrs_neg _ _ _ _
    pnS_small pnS_small (fun _ => pnE_bdd)

/-- Twenty-one bits above `logN` always suffice for a fresh encryption at these parameters. -/
example : testEncryptor 21 15 pnCrs (RPoly.new 21) pnS pnE pnS pnE pnE = .ok true :=
  C65_Encrypt pn_N pnCtx_good pnCtx_fits
    (pn_above.mono (by show 38 * (2 * 32768 + 1) + 1 ≤ 2 ^ 30; norm_num)) pnCrs_zero rfl _ pnS_bdd
    pnS_bdd pnE_bdd pnE_bdd pnE_bdd (by show 19 * (2 * 32768 + 1) < 2 ^ 21; norm_num)

/-- The twelve of the test do not. -/
example : ∃ s e u e0 e1 : Nega pnCtx.N ℤ, s.Bdd 1 ∧ u.Bdd 1 ∧ e.Bdd 19 ∧ e0.Bdd 19 ∧ e1.Bdd 19 ∧
    testEncryptor 12 15 pnCrs (RPoly.new 21) s e u e0 e1 = .ok false ∧
    testEncryptor 9 15 pnCrs (RPoly.new 21) s e u e0 e1 = .ok false :=
  C65_Encrypt_can_fail pn_N (by norm_num) pnCtx_good pnCtx_fits
    (pn_above.mono (by show 38 * (2 * 32768 + 1) + 1 ≤ 2 ^ 30; norm_num))
    (lt_trans (by show 19 * (2 * 32768 + 1) * 32768 < 2 ^ 55; norm_num) pn_prod) pnCrs_zero rfl _

/-- The digits of `pnCtx` are single moduli. -/
theorem pn_block (k : ℕ) : 2 * blockSetProd pnCtx pnCtx.lq k ≤ 2 * 0x80000000080001 := by
  have hq : ∀ i < 21, pnQ i ≤ 0x80000000080001 := by decide +kernel
  have ha : pnCtx.alpha = 1 := rfl
  refine Nat.mul_le_mul_left 2 ?_
  have hs : (range (pnCtx.lq + 1)).filter (· / pnCtx.alpha = k) ⊆ {k} := by
    intro i hi
    rw [mem_filter, ha, Nat.div_one] at hi
    simp [hi.2]
  unfold blockSetProd
  rcases subset_singleton_iff.mp hs with h | h
  · rw [h, prod_empty]; norm_num
  · rw [h, prod_singleton]
    have : k ∈ (range (pnCtx.lq + 1)).filter (· / pnCtx.alpha = k) := by rw [h]; simp
    rw [mem_filter, mem_range] at this
    exact hq k this.1

example : testExternalProduct 10 15 pnCrs (RPoly.new 21) (RPoly.new 21) pnS pnE pnS pnE pnE
    (fun _ => pnE) = .ok true :=
  C65_ExternalProduct pn_N pnCtx_good pnCtx_fits (pn_above.mono (by norm_num)) pnCrs_zero rfl _ _
    _ _ _ pnS_small pnE_bdd (fun _ => pnE_bdd) (fun k _ => pn_block k) (by decide +kernel)

end MK
