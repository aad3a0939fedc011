import Verif.Nega

/-!
# Galois automorphisms `X ↦ X^g` of the negacyclic ring
-/

namespace MK

open Finset

namespace Nega

variable {N : ℕ} {A B : Type _} [CommRing A] [CommRing B]

/-- `a(X) ↦ a(X^g)` on coefficients: coefficient `i` goes to position `g*i mod N` with the
sign of the reduction modulo `X^N+1`. -/
def auto (g : ℕ) (a : Nega N A) : Nega N A := ⟨fun k =>
  ∑ i : Fin N, if (i.val * g) % N = k.val then sgn N (i.val * g) • a.coeff i else 0⟩

theorem coeff_auto (g : ℕ) (a : Nega N A) (k : Fin N) :
    (auto g a).coeff k =
      ∑ i : Fin N, if (i.val * g) % N = k.val then sgn N (i.val * g) • a.coeff i else 0 := rfl

theorem toQuot_auto [NeZero N] (g : ℕ) (a : Nega N A) :
    toQuot (auto g a) = ∑ i : Fin N, a.coeff i • (x N A) ^ (i.val * g) := by
  have hN : 0 < N := Nat.pos_of_ne_zero (NeZero.ne N)
  unfold toQuot
  simp only [coeff_auto, Finset.sum_smul]
  rw [Finset.sum_comm]
  refine Finset.sum_congr rfl fun i _ => ?_
  rw [Finset.sum_eq_single (⟨(i.val * g) % N, Nat.mod_lt _ hN⟩ : Fin N)]
  · simp only [if_true]
    rw [x_pow (i.val * g), smul_comm, smul_assoc]
  · intro k _ hk
    have : (i.val * g) % N ≠ k.val := fun h => hk (Fin.ext h.symm)
    simp [this]
  · simp

theorem eval₂_modulus {S : Type _} [CommRing S] (f : A →+* S) (y : S) :
    (modulus N A).eval₂ f y = y ^ N + 1 := by
  unfold modulus
  rw [Polynomial.eval₂_add, Polynomial.eval₂_pow, Polynomial.eval₂_X, Polynomial.eval₂_one]

theorem eval₂_modulus_x_pow {g : ℕ} (hg : Odd g) :
    (modulus N A).eval₂ (algebraMap A (Quot N A)) ((x N A) ^ g) = 0 := by
  rw [eval₂_modulus, ← pow_mul, mul_comm, pow_mul, x_pow_N, hg.neg_one_pow]
  simp

/-- The substitution homomorphism on the quotient, for odd `g`. -/
noncomputable def quotAuto (g : ℕ) (hg : Odd g) : Quot N A →+* Quot N A :=
  AdjoinRoot.lift (algebraMap A (Quot N A)) ((x N A) ^ g) (eval₂_modulus_x_pow hg)

theorem quotAuto_x (g : ℕ) (hg : Odd g) : quotAuto g hg (x N A) = (x N A) ^ g :=
  AdjoinRoot.lift_root (eval₂_modulus_x_pow hg)

theorem quotAuto_algebraMap (g : ℕ) (hg : Odd g) (c : A) :
    quotAuto g hg (algebraMap A (Quot N A) c) = algebraMap A (Quot N A) c :=
  AdjoinRoot.lift_of (eval₂_modulus_x_pow hg)

theorem quotAuto_toQuot [NeZero N] (g : ℕ) (hg : Odd g) (a : Nega N A) :
    quotAuto g hg (toQuot a) = toQuot (auto g a) := by
  rw [toQuot_auto]
  unfold toQuot
  rw [map_sum]
  refine Finset.sum_congr rfl fun i _ => ?_
  rw [Algebra.smul_def, map_mul, map_pow, quotAuto_x, quotAuto_algebraMap, ← pow_mul,
    mul_comm g, ← Algebra.smul_def]

/-- `X ↦ X^g` as a ring homomorphism (odd `g`). -/
def autoHom [NeZero N] (g : ℕ) (hg : Odd g) : Nega N A →+* Nega N A where
  toFun := auto g
  map_one' := by
    apply toQuot_injective
    rw [← quotAuto_toQuot g hg]
    show quotAuto g hg (toQuotHom 1) = toQuotHom 1
    rw [map_one, map_one]
  map_mul' a b := by
    apply toQuot_injective
    rw [← quotAuto_toQuot g hg, toQuot_mul, toQuot_mul, map_mul, quotAuto_toQuot, quotAuto_toQuot]
  map_zero' := by
    ext k; simp [coeff_auto]
  map_add' a b := by
    ext k
    simp only [coeff_auto, coeff_add, ← Finset.sum_add_distrib]
    refine Finset.sum_congr rfl fun i _ => ?_
    split
    · rw [smul_add]
    · simp

@[simp] theorem autoHom_apply [NeZero N] (g : ℕ) (hg : Odd g) (a : Nega N A) :
    autoHom g hg a = auto g a := rfl

theorem auto_map [NeZero N] (f : A →+* B) (g : ℕ) (a : Nega N A) :
    auto g (map f a) = map f (auto g a) := by
  ext k
  simp only [coeff_auto, coeff_map, map_sum]
  refine Finset.sum_congr rfl fun i _ => ?_
  split
  · rw [map_zsmul]
  · simp

theorem auto_red [NeZero N] (q : ℕ) (g : ℕ) (a : Nega N ℤ) :
    auto g (red q a) = red q (auto g a) := auto_map _ g a

/-- Composition of automorphisms. -/
theorem auto_auto [NeZero N] (g h : ℕ) (hg : Odd g) (a : Nega N A) :
    auto g (auto h a) = auto (g * h) a := by
  apply toQuot_injective
  rw [← quotAuto_toQuot g hg, toQuot_auto, toQuot_auto, map_sum]
  refine Finset.sum_congr rfl fun i _ => ?_
  rw [Algebra.smul_def, map_mul, map_pow, quotAuto_x, quotAuto_algebraMap, ← pow_mul,
    ← Algebra.smul_def]
  congr 2
  ring

theorem x_pow_two_N : (x N A) ^ (2 * N) = 1 := by
  rw [mul_comm, pow_mul, x_pow_N]; simp

/-- `g` only matters modulo `2N`. -/
theorem auto_congr [NeZero N] {g h : ℕ} (hgh : g ≡ h [MOD 2 * N]) (a : Nega N A) :
    auto g a = auto h a := by
  apply toQuot_injective
  rw [toQuot_auto, toQuot_auto]
  refine Finset.sum_congr rfl fun i _ => ?_
  have key : ∀ d e : ℕ, d ≡ e [MOD 2 * N] → (x N A) ^ d = (x N A) ^ e := by
    intro d e hde
    rw [← Nat.div_add_mod d (2 * N), ← Nat.div_add_mod e (2 * N), pow_add, pow_add,
      pow_mul _ (2 * N), pow_mul _ (2 * N), x_pow_two_N, one_pow, one_pow, hde]
  rw [key _ _ (hgh.mul_left i.val)]

theorem auto_one [NeZero N] (a : Nega N A) : auto 1 a = a := by
  apply toQuot_injective
  rw [toQuot_auto]; simp [toQuot]

/-- The automorphism permutes coefficients up to sign, so it preserves norm bounds. -/
theorem Bdd.auto [NeZero N] {a : Nega N ℤ} {B : ℤ} (g : ℕ) (hg : g.Coprime N)
    (ha : Bdd a B) : Bdd (Nega.auto g a) B := fun k => by
  rw [coeff_auto]
  have hB : 0 ≤ B := ha.nonneg
  refine (Finset.abs_sum_le_sum_abs _ _).trans ?_
  calc ∑ i : Fin N, |if (i.val * g) % N = k.val then sgn N (i.val * g) • a.coeff i else 0|
      ≤ ∑ i : Fin N, if (i.val * g) % N = k.val then B else 0 := by
        refine Finset.sum_le_sum fun i _ => ?_
        split
        · rw [smul_eq_mul, abs_mul, sgn_abs, one_mul]; exact ha i
        · simp
    _ = (Finset.univ.filter fun i : Fin N => (i.val * g) % N = k.val).card • B := by
        rw [← Finset.sum_filter, Finset.sum_const]
    _ ≤ 1 • B := by
        refine nsmul_le_nsmul_left hB ?_
        rw [Finset.card_le_one]
        intro i hi j hj
        simp only [Finset.mem_filter, Finset.mem_univ, true_and] at hi hj
        apply Fin.ext
        have h : i.val * g ≡ j.val * g [MOD N] := hi.trans hj.symm
        have := Nat.ModEq.cancel_right_of_coprime (by rw [Nat.Coprime.gcd_eq_one hg.symm]) h
        exact Nat.ModEq.eq_of_lt_of_lt this i.isLt j.isLt
    _ = B := one_nsmul _

end Nega

end MK
