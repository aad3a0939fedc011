import Mathlib.RingTheory.AdjoinRoot
import Mathlib.Data.ZMod.Basic
import Mathlib.Algebra.BigOperators.Ring.Finset
import Mathlib.Algebra.Order.BigOperators.Ring.Finset
import Mathlib.Algebra.BigOperators.Fin
import Mathlib.Tactic.Ring
import Mathlib.Tactic.Linarith

/-!
# The negacyclic ring `A[X]/(X^N+1)` on coefficient vectors

This is the ring all RLWE polynomials live in (lattigo `ring.Ring` with `N` coefficients).
Multiplication is the explicit negacyclic convolution.
-/

namespace MK

open Finset

/-- Coefficient vectors of `A[X]/(X^N+1)`. -/
@[ext] structure Nega (N : ℕ) (A : Type _) where
  coeff : Fin N → A

namespace Nega

variable {N : ℕ} {A B : Type _} [CommRing A] [CommRing B]

/-- The sign picked up when a monomial of degree `d` is reduced modulo `X^N+1`. -/
def sgn (N d : ℕ) : ℤ := (-1) ^ (d / N)

instance : Zero (Nega N A) := ⟨⟨fun _ => 0⟩⟩
instance : Add (Nega N A) := ⟨fun a b => ⟨fun i => a.coeff i + b.coeff i⟩⟩
instance : Neg (Nega N A) := ⟨fun a => ⟨fun i => - a.coeff i⟩⟩
instance : Sub (Nega N A) := ⟨fun a b => ⟨fun i => a.coeff i - b.coeff i⟩⟩
instance : SMul ℕ (Nega N A) := ⟨fun n a => ⟨fun i => n • a.coeff i⟩⟩
instance : SMul ℤ (Nega N A) := ⟨fun n a => ⟨fun i => n • a.coeff i⟩⟩
/-- Constant polynomial. -/
def const (c : A) : Nega N A := ⟨fun i => if i.val = 0 then c else 0⟩
instance : One (Nega N A) := ⟨const 1⟩
instance : NatCast (Nega N A) := ⟨fun n => const (n : A)⟩
instance : IntCast (Nega N A) := ⟨fun n => const (n : A)⟩
/-- Negacyclic convolution. -/
instance : Mul (Nega N A) := ⟨fun a b => ⟨fun k =>
  ∑ i : Fin N, ∑ j : Fin N, if (i.val + j.val) % N = k.val then
    sgn N (i.val + j.val) • (a.coeff i * b.coeff j) else 0⟩⟩

/-- Naive power (so that `Pow` exists before the ring structure does). -/
def powAux (a : Nega N A) : ℕ → Nega N A
  | 0 => 1
  | n + 1 => powAux a n * a
instance : Pow (Nega N A) ℕ := ⟨powAux⟩

@[simp] theorem coeff_zero (i : Fin N) : (0 : Nega N A).coeff i = 0 := rfl
@[simp] theorem coeff_add (a b : Nega N A) (i : Fin N) :
    (a + b).coeff i = a.coeff i + b.coeff i := rfl
@[simp] theorem coeff_neg (a : Nega N A) (i : Fin N) : (-a).coeff i = - a.coeff i := rfl
@[simp] theorem coeff_sub (a b : Nega N A) (i : Fin N) :
    (a - b).coeff i = a.coeff i - b.coeff i := rfl
@[simp] theorem coeff_nsmul (n : ℕ) (a : Nega N A) (i : Fin N) :
    (n • a).coeff i = n • a.coeff i := rfl
@[simp] theorem coeff_zsmul (n : ℤ) (a : Nega N A) (i : Fin N) :
    (n • a).coeff i = n • a.coeff i := rfl
theorem coeff_const (c : A) (i : Fin N) :
    (const c : Nega N A).coeff i = if i.val = 0 then c else 0 := rfl
theorem coeff_one (i : Fin N) : (1 : Nega N A).coeff i = if i.val = 0 then 1 else 0 := rfl
theorem coeff_mul (a b : Nega N A) (k : Fin N) :
    (a * b).coeff k = ∑ i : Fin N, ∑ j : Fin N, if (i.val + j.val) % N = k.val then
    sgn N (i.val + j.val) • (a.coeff i * b.coeff j) else 0 := rfl

/-! ## Embedding into `AdjoinRoot (X^N+1)` -/

section Embed

open Polynomial

/-- The modulus polynomial. -/
noncomputable def modulus (N : ℕ) (A : Type _) [CommRing A] : A[X] := X ^ N + 1

/-- The quotient ring `A[X]/(X^N+1)`. -/
abbrev Quot (N : ℕ) (A : Type _) [CommRing A] := AdjoinRoot (modulus N A)

/-- The class of `X`. -/
noncomputable def x (N : ℕ) (A : Type _) [CommRing A] : Quot N A := AdjoinRoot.root (modulus N A)

theorem x_pow_N : (x N A) ^ N = -1 := by
  have h : AdjoinRoot.mk (modulus N A) (modulus N A) = 0 := AdjoinRoot.mk_self
  have h2 : AdjoinRoot.mk (modulus N A) (X ^ N + 1) = (x N A) ^ N + 1 := by
    simp [x]
  rw [show (X ^ N + 1 : A[X]) = modulus N A from rfl, h] at h2
  exact eq_neg_of_add_eq_zero_left h2.symm

theorem x_pow (d : ℕ) : (x N A) ^ d = sgn N d • (x N A) ^ (d % N) := by
  conv_lhs => rw [← Nat.div_add_mod d N]
  rw [pow_add, pow_mul, x_pow_N, sgn]
  simp

/-- The embedding `a ↦ ∑ a_i x^i`. -/
noncomputable def toQuot (a : Nega N A) : Quot N A :=
  ∑ i : Fin N, a.coeff i • (x N A) ^ i.val

theorem monic_modulus (hN : N ≠ 0) : (modulus N A).Monic := by
  unfold modulus
  simpa using monic_X_pow_add_C (1 : A) hN

theorem toQuot_eq_mk (a : Nega N A) :
    toQuot a = AdjoinRoot.mk (modulus N A) (∑ i : Fin N, C (a.coeff i) * X ^ i.val) := by
  simp [toQuot, x, Algebra.smul_def, AdjoinRoot.algebraMap_eq]

theorem toQuot_injective : Function.Injective (toQuot (N := N) (A := A)) := by
  intro a b h
  rcases Nat.eq_zero_or_pos N with rfl | hN
  · ext i; exact i.elim0
  rcases subsingleton_or_nontrivial A with hA | hA
  · ext i; exact Subsingleton.elim _ _
  rw [toQuot_eq_mk, toQuot_eq_mk, AdjoinRoot.mk_eq_mk] at h
  rw [← Finset.sum_sub_distrib] at h
  set p : A[X] := ∑ i : Fin N, (C (a.coeff i) * X ^ i.val - C (b.coeff i) * X ^ i.val) with hp
  have hdeg : p.degree < (modulus N A).degree := by
    have h1 : (modulus N A).degree = N := by
      unfold modulus
      rw [show (1 : A[X]) = C 1 by simp]
      exact degree_X_pow_add_C hN 1
    rw [h1]
    refine lt_of_le_of_lt (degree_sum_le _ _) ?_
    rw [Finset.sup_lt_iff (by exact_mod_cast WithBot.bot_lt_coe N)]
    intro i _
    rw [← sub_mul, ← C_sub]
    exact lt_of_le_of_lt (degree_C_mul_X_pow_le _ _) (by exact_mod_cast i.isLt)
  have hp0 : p = 0 := by
    by_contra hne
    exact (monic_modulus (A := A) hN.ne').not_dvd_of_degree_lt hne hdeg h
  ext k
  have hk : p.coeff k.val = 0 := by rw [hp0]; simp
  rw [hp, finsetSum_coeff] at hk
  rw [Finset.sum_eq_single k] at hk
  · simp only [Polynomial.coeff_sub, coeff_C_mul, coeff_X_pow, if_true, mul_one] at hk
    exact sub_eq_zero.mp hk
  · intro i _ hik
    have : k.val ≠ i.val := fun h => hik (Fin.ext h.symm)
    simp [coeff_X_pow, this]
  · simp

theorem toQuot_zero : toQuot (0 : Nega N A) = 0 := by simp [toQuot]
theorem toQuot_add (a b : Nega N A) : toQuot (a + b) = toQuot a + toQuot b := by
  simp [toQuot, add_smul, Finset.sum_add_distrib]
theorem toQuot_neg (a : Nega N A) : toQuot (-a) = - toQuot a := by
  simp [toQuot]
theorem toQuot_sub (a b : Nega N A) : toQuot (a - b) = toQuot a - toQuot b := by
  simp [toQuot, sub_smul, Finset.sum_sub_distrib]
theorem toQuot_nsmul (a : Nega N A) (n : ℕ) : toQuot (n • a) = n • toQuot a := by
  simp only [toQuot, Finset.smul_sum, coeff_nsmul, smul_assoc]
theorem toQuot_zsmul (a : Nega N A) (n : ℤ) : toQuot (n • a) = n • toQuot a := by
  simp only [toQuot, Finset.smul_sum, coeff_zsmul, smul_assoc]

theorem toQuot_const [NeZero N] (c : A) :
    toQuot (const c : Nega N A) = algebraMap A (Quot N A) c := by
  unfold toQuot
  rw [Finset.sum_eq_single (⟨0, Nat.pos_of_ne_zero (NeZero.ne N)⟩ : Fin N)]
  · simp [coeff_const, Algebra.smul_def]
  · intro b _ hb
    have : b.val ≠ 0 := fun h => hb (Fin.ext h)
    simp [coeff_const, this]
  · simp

theorem toQuot_mul [NeZero N] (a b : Nega N A) : toQuot (a * b) = toQuot a * toQuot b := by
  have hN : 0 < N := Nat.pos_of_ne_zero (NeZero.ne N)
  unfold toQuot
  simp only [coeff_mul, Finset.sum_smul]
  rw [Finset.sum_comm]
  rw [Finset.sum_mul_sum]
  refine Finset.sum_congr rfl fun i _ => ?_
  rw [Finset.sum_comm]
  refine Finset.sum_congr rfl fun j _ => ?_
  rw [Finset.sum_eq_single (⟨(i.val + j.val) % N, Nat.mod_lt _ hN⟩ : Fin N)]
  · simp only [if_true]
    rw [smul_mul_smul_comm, ← pow_add, x_pow (i.val + j.val)]
    rw [smul_comm, smul_assoc]
  · intro k _ hk
    have : (i.val + j.val) % N ≠ k.val := fun h => hk (Fin.ext h.symm)
    simp [this]
  · simp

end Embed

noncomputable instance [NeZero N] : CommRing (Nega N A) :=
  Function.Injective.commRing toQuot toQuot_injective toQuot_zero
    (by show toQuot (const 1) = 1; rw [toQuot_const]; simp)
    toQuot_add toQuot_mul toQuot_neg toQuot_sub
    (fun n a => toQuot_nsmul a n) (fun n a => toQuot_zsmul a n)
    (by
      intro a n
      induction n with
      | zero =>
        show toQuot (const 1) = _
        rw [toQuot_const]; simp
      | succ n ih =>
        show toQuot (powAux a n * a) = _
        rw [toQuot_mul, pow_succ]
        congr 1)
    (by intro n; show toQuot (const (n : A)) = _; rw [toQuot_const]; simp)
    (by intro n; show toQuot (const (n : A)) = _; rw [toQuot_const]; simp)

/-- `toQuot` as a ring homomorphism. -/
noncomputable def toQuotHom [NeZero N] : Nega N A →+* Quot N A where
  toFun := toQuot
  map_one' := by show toQuot (const 1) = 1; rw [toQuot_const]; simp
  map_mul' := toQuot_mul
  map_zero' := toQuot_zero
  map_add' := toQuot_add

/-- Coefficient-wise application of a ring homomorphism. -/
def mapC (f : A → B) (a : Nega N A) : Nega N B := ⟨fun i => f (a.coeff i)⟩

omit [CommRing A] [CommRing B] in
@[simp] theorem coeff_mapC (f : A → B) (a : Nega N A) (i : Fin N) :
    (mapC f a).coeff i = f (a.coeff i) := rfl

/-- Coefficient-wise ring homomorphism. -/
def map [NeZero N] (f : A →+* B) : Nega N A →+* Nega N B where
  toFun := mapC f
  map_one' := by
    ext i
    simp only [coeff_mapC, coeff_one]
    split <;> simp
  map_mul' a b := by
    ext k
    simp only [coeff_mapC, coeff_mul, map_sum]
    refine Finset.sum_congr rfl fun i _ => Finset.sum_congr rfl fun j _ => ?_
    split
    · rw [map_zsmul, map_mul]
    · exact map_zero f
  map_zero' := by ext i; simp
  map_add' a b := by ext i; simp

@[simp] theorem coeff_map [NeZero N] (f : A →+* B) (a : Nega N A) (i : Fin N) :
    (map f a).coeff i = f (a.coeff i) := rfl

/-- Reduction of integer polynomials modulo `q`. -/
def red [NeZero N] (q : ℕ) : Nega N ℤ →+* Nega N (ZMod q) := map (Int.castRingHom (ZMod q))

@[simp] theorem coeff_red [NeZero N] (q : ℕ) (a : Nega N ℤ) (i : Fin N) :
    (red q a).coeff i = (a.coeff i : ZMod q) := rfl

theorem coeff_natCast [NeZero N] (n : ℕ) (i : Fin N) :
    ((n : Nega N A)).coeff i = if i.val = 0 then (n : A) else 0 := rfl
theorem coeff_intCast [NeZero N] (n : ℤ) (i : Fin N) :
    ((n : Nega N A)).coeff i = if i.val = 0 then (n : A) else 0 := rfl

theorem coeff_const_mul [NeZero N] (c : A) (a : Nega N A) (k : Fin N) :
    (const c * a).coeff k = c * a.coeff k := by
  have hN : 0 < N := Nat.pos_of_ne_zero (NeZero.ne N)
  rw [coeff_mul, Finset.sum_eq_single (⟨0, hN⟩ : Fin N)]
  · rw [Finset.sum_eq_single k]
    · simp [coeff_const, Nat.mod_eq_of_lt k.isLt, sgn, Nat.div_eq_of_lt k.isLt]
    · intro j _ hj
      have : ¬ (0 + j.val) % N = k.val := by
        rw [zero_add, Nat.mod_eq_of_lt j.isLt]
        exact fun h => hj (Fin.ext h)
      rw [if_neg this]
    · simp
  · intro i _ hi
    have : i.val ≠ 0 := fun h => hi (Fin.ext h)
    simp [coeff_const, this]
  · simp

theorem coeff_natCast_mul [NeZero N] (n : ℕ) (a : Nega N A) (k : Fin N) :
    ((n : Nega N A) * a).coeff k = n * a.coeff k := coeff_const_mul (n : A) a k
theorem coeff_intCast_mul [NeZero N] (n : ℤ) (a : Nega N A) (k : Fin N) :
    ((n : Nega N A) * a).coeff k = n * a.coeff k := coeff_const_mul (n : A) a k

theorem const_mul_const [NeZero N] (c d : A) :
    (const c * const d : Nega N A) = const (c * d) := by
  ext k; rw [coeff_const_mul]; simp [coeff_const]

theorem coeff_sum [NeZero N] {ι : Type _} (s : Finset ι) (f : ι → Nega N A) (k : Fin N) :
    (∑ i ∈ s, f i).coeff k = ∑ i ∈ s, (f i).coeff k := by
  classical
  induction s using Finset.induction_on with
  | empty => rfl
  | insert a s ha ih => rw [Finset.sum_insert ha, Finset.sum_insert ha, coeff_add, ih]

/-! ## Norm bounds -/

/-- `‖a‖_∞ ≤ B`. -/
def Bdd (a : Nega N ℤ) (B : ℤ) : Prop := ∀ i, |a.coeff i| ≤ B

theorem Bdd.mono {a : Nega N ℤ} {B C : ℤ} (h : Bdd a B) (hBC : B ≤ C) : Bdd a C :=
  fun i => (h i).trans hBC

theorem Bdd.nonneg [NeZero N] {a : Nega N ℤ} {B : ℤ} (h : Bdd a B) : 0 ≤ B :=
  (abs_nonneg _).trans (h ⟨0, Nat.pos_of_ne_zero (NeZero.ne N)⟩)

theorem bdd_zero : Bdd (0 : Nega N ℤ) 0 := fun i => by simp

theorem Bdd.add {a b : Nega N ℤ} {B C : ℤ} (ha : Bdd a B) (hb : Bdd b C) :
    Bdd (a + b) (B + C) := fun i => (abs_add_le _ _).trans (add_le_add (ha i) (hb i))

theorem Bdd.neg {a : Nega N ℤ} {B : ℤ} (ha : Bdd a B) : Bdd (-a) B := fun i => by
  simpa using ha i

theorem Bdd.sub {a b : Nega N ℤ} {B C : ℤ} (ha : Bdd a B) (hb : Bdd b C) :
    Bdd (a - b) (B + C) := fun i => (abs_sub _ _).trans (add_le_add (ha i) (hb i))

theorem Bdd.sum [NeZero N] {ι : Type _} (s : Finset ι) (f : ι → Nega N ℤ) (B : ι → ℤ)
    (h : ∀ i ∈ s, Bdd (f i) (B i)) : Bdd (∑ i ∈ s, f i) (∑ i ∈ s, B i) := fun k => by
  rw [coeff_sum]
  exact (Finset.abs_sum_le_sum_abs _ _).trans (Finset.sum_le_sum fun i hi => h i hi k)

theorem card_mod_pairs [NeZero N] (k : Fin N) (i : Fin N) :
    (Finset.univ.filter fun j : Fin N => (i.val + j.val) % N = k.val).card ≤ 1 := by
  rw [Finset.card_le_one]
  intro a ha b hb
  simp only [Finset.mem_filter, Finset.mem_univ, true_and] at ha hb
  apply Fin.ext
  have h : (i.val + a.val) ≡ (i.val + b.val) [MOD N] := ha.trans hb.symm
  have := Nat.ModEq.add_left_cancel' i.val h
  exact Nat.ModEq.eq_of_lt_of_lt this a.isLt b.isLt

theorem sgn_abs (d : ℕ) : |sgn N d| = 1 := by
  unfold sgn
  rw [abs_pow]; simp

theorem Bdd.mul [NeZero N] {a b : Nega N ℤ} {B C : ℤ} (ha : Bdd a B) (hb : Bdd b C) :
    Bdd (a * b) (N * (B * C)) := fun k => by
  rw [coeff_mul]
  have hBC : 0 ≤ B * C := mul_nonneg ha.nonneg hb.nonneg
  refine (Finset.abs_sum_le_sum_abs _ _).trans ?_
  have : ∀ i ∈ (Finset.univ : Finset (Fin N)), |∑ j : Fin N, if (i.val + j.val) % N = k.val then
      sgn N (i.val + j.val) • (a.coeff i * b.coeff j) else 0| ≤ B * C := by
    intro i _
    refine (Finset.abs_sum_le_sum_abs _ _).trans ?_
    calc ∑ j : Fin N, |if (i.val + j.val) % N = k.val then
          sgn N (i.val + j.val) • (a.coeff i * b.coeff j) else 0|
        ≤ ∑ j : Fin N, if (i.val + j.val) % N = k.val then B * C else 0 := by
          refine Finset.sum_le_sum fun j _ => ?_
          split
          · rw [smul_eq_mul, abs_mul, sgn_abs, one_mul, abs_mul]
            exact mul_le_mul (ha i) (hb j) (abs_nonneg _) ha.nonneg
          · simp
      _ = (Finset.univ.filter fun j : Fin N => (i.val + j.val) % N = k.val).card • (B * C) := by
          rw [← Finset.sum_filter, Finset.sum_const]
      _ ≤ 1 • (B * C) := nsmul_le_nsmul_left hBC (card_mod_pairs k i)
      _ = B * C := one_nsmul _
  refine (Finset.sum_le_sum this).trans ?_
  simp

theorem Bdd.intCast_mul [NeZero N] {a : Nega N ℤ} {B : ℤ} (c : ℤ) (ha : Bdd a B) :
    Bdd ((c : Nega N ℤ) * a) (|c| * B) := fun k => by
  rw [coeff_intCast_mul, abs_mul]
  exact mul_le_mul_of_nonneg_left (ha k) (abs_nonneg c)

end Nega

end MK
