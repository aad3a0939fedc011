import Verif.Ring
import Mathlib.Algebra.Polynomial.Roots
import Mathlib.Algebra.Field.ZMod
import Mathlib.Tactic.NormNum.Prime
import Mathlib.Data.Rat.Floor
import Mathlib.Tactic.IntervalCases

/-!
# Evaluation of negacyclic polynomials and a concrete number-theoretic transform

Evaluation at a root of `X^N+1` is a ring homomorphism.  Evaluating at `N` distinct roots
over a prime field gives the isomorphism `Ntt` asks for, so the abstract transforms of `Ctx`
are inhabited; `exCtx` is a small complete parameter set used in the examples.
-/

noncomputable section

namespace MK

namespace Nega

variable {N : ℕ} [NeZero N] {A S : Type _} [CommRing A] [CommRing S]

omit [NeZero N] in
theorem eval₂_modulus_root (f : A →+* S) (ζ : S) (h : ζ ^ N = -1) :
    (modulus N A).eval₂ f ζ = 0 := by rw [eval₂_modulus, h]; simp

/-- Evaluation of `a` at a root `ζ` of `X^N+1`. -/
def evalAt (f : A →+* S) (ζ : S) (h : ζ ^ N = -1) : Nega N A →+* S :=
  (AdjoinRoot.lift f ζ (eval₂_modulus_root f ζ h)).comp toQuotHom

theorem evalAt_apply (f : A →+* S) (ζ : S) (h : ζ ^ N = -1) (a : Nega N A) :
    evalAt f ζ h a = ∑ i : Fin N, f (a.coeff i) * ζ ^ i.val := by
  show AdjoinRoot.lift f ζ (eval₂_modulus_root f ζ h) (toQuot a) = _
  unfold toQuot
  rw [map_sum]
  refine Finset.sum_congr rfl fun i _ => ?_
  rw [Algebra.smul_def, map_mul, map_pow, x, AdjoinRoot.lift_root, AdjoinRoot.algebraMap_eq,
    AdjoinRoot.lift_of]

/-- Galois automorphisms permute the evaluation points: `(σ_g a)(ζ) = a(ζ^g)`. -/
theorem evalAt_auto (f : A →+* S) (ζ : S) (h : ζ ^ N = -1) (g : ℕ)
    (h' : (ζ ^ g) ^ N = -1) (a : Nega N A) :
    evalAt f ζ h (auto g a) = evalAt f (ζ ^ g) h' a := by
  show AdjoinRoot.lift f ζ (eval₂_modulus_root f ζ h) (toQuot (auto g a)) = _
  rw [toQuot_auto, evalAt_apply, map_sum]
  refine Finset.sum_congr rfl fun i _ => ?_
  rw [Algebra.smul_def, map_mul, map_pow, x, AdjoinRoot.lift_root,
    AdjoinRoot.algebraMap_eq, AdjoinRoot.lift_of]
  ring

end Nega

open Polynomial in
/-- Evaluation at `N` distinct roots of `X^N+1` over a prime field is an isomorphism. -/
def evalEquiv (N : ℕ) [NeZero N] (q : ℕ) [Fact q.Prime] (ζ : Fin N → ZMod q)
    (hζ : ∀ j, ζ j ^ N = -1) (hinj : Function.Injective ζ) :
    Nega N (ZMod q) ≃+* Row N q :=
  RingEquiv.ofBijective
    (RingHom.pi fun j => Nega.evalAt (RingHom.id (ZMod q)) (ζ j) (hζ j)) (by
    have hinj' : Function.Injective
        (RingHom.pi fun j => Nega.evalAt (RingHom.id (ZMod q)) (ζ j) (hζ j)) := by
      rw [injective_iff_map_eq_zero]
      intro a ha
      by_contra hne
      set P : (ZMod q)[X] := ∑ i : Fin N, C (a.coeff i) * X ^ i.val with hP
      have hcoef : ∀ k : Fin N, P.coeff k.val = a.coeff k := by
        intro k
        rw [hP, finsetSum_coeff, Finset.sum_eq_single k]
        · simp
        · intro i _ hik
          have : k.val ≠ i.val := fun h => hik (Fin.ext h.symm)
          simp [coeff_X_pow, this]
        · simp
      have hP0 : P ≠ 0 := by
        intro h0
        apply hne
        ext k
        rw [← hcoef, h0]; simp
      have hdeg : P.natDegree < N := by
        have hN : 0 < N := Nat.pos_of_ne_zero (NeZero.ne N)
        have : P.degree < N := by
          rw [hP]
          refine lt_of_le_of_lt (degree_sum_le _ _) ?_
          rw [Finset.sup_lt_iff (by exact_mod_cast WithBot.bot_lt_coe N)]
          intro i _
          exact lt_of_le_of_lt (degree_C_mul_X_pow_le _ _) (by exact_mod_cast i.isLt)
        exact (natDegree_lt_iff_degree_lt hP0).mpr this
      have hroots : Finset.univ.image ζ ⊆ P.roots.toFinset := by
        intro z hz
        obtain ⟨j, _, rfl⟩ := Finset.mem_image.mp hz
        rw [Multiset.mem_toFinset, mem_roots hP0, IsRoot.def]
        have : Nega.evalAt (RingHom.id (ZMod q)) (ζ j) (hζ j) a = 0 := congrFun ha j
        rw [Nega.evalAt_apply] at this
        rw [hP, eval_finsetSum]
        simpa using this
      have h1 := Finset.card_le_card hroots
      rw [Finset.card_image_of_injective _ hinj, Finset.card_univ, Fintype.card_fin] at h1
      have h2 := (Multiset.toFinset_card_le P.roots).trans (card_roots' P)
      omega
    refine ⟨hinj', fun y => ?_⟩
    have h2 : Function.Injective fun x : Row N q =>
        (RingHom.pi fun j => Nega.evalAt (RingHom.id (ZMod q)) (ζ j) (hζ j))
          (⟨x⟩ : Nega N (ZMod q)) := by
      intro x x' h
      exact congrArg Nega.coeff (hinj' h)
    obtain ⟨x, hx⟩ := (Finite.injective_iff_surjective.mp h2) y
    exact ⟨⟨x⟩, hx⟩)

/-- Over the zero ring every transform is trivial (used to continue modulus chains). -/
def trivEquiv (N : ℕ) [NeZero N] : Nega N (ZMod 1) ≃+* Row N 1 where
  toFun a := a.coeff
  invFun r := ⟨r⟩
  left_inv _ := rfl
  right_inv _ := rfl
  map_mul' _ _ := funext fun _ => Subsingleton.elim _ _
  map_add' _ _ := rfl

/-! ## A small parameter set -/

instance : Fact (Nat.Prime 17) := ⟨by norm_num⟩
instance : Fact (Nat.Prime 41) := ⟨by norm_num⟩
instance : Fact (Nat.Prime 73) := ⟨by norm_num⟩
instance : Fact (Nat.Prime 89) := ⟨by norm_num⟩
instance : Fact (Nat.Prime 97) := ⟨by norm_num⟩
instance : Fact (Nat.Prime 113) := ⟨by norm_num⟩
instance : Fact (Nat.Prime 137) := ⟨by norm_num⟩

/-- Moduli `17, 41, 73, 97`, continued by `1`. -/
def exQ : ℕ → ℕ
  | 0 => 17
  | 1 => 41
  | 2 => 73
  | 3 => 97
  | _ => 1

/-- Special primes `113, 89`, continued by `1`. -/
def exP : ℕ → ℕ
  | 0 => 113
  | 1 => 89
  | _ => 1

/-- The roots `ψ^(2j+1)` of `X^4+1` in bit-reversed order. -/
def exRoots (q : ℕ) (ψ : ZMod q) (j : Fin 4) : ZMod q := ψ ^ (![1, 5, 3, 7] j : ℕ)

def exNttQ : Ntt 4 exQ where
  equiv
  | 0 => evalEquiv 4 17 (exRoots 17 2) (by decide) (by decide)
  | 1 => evalEquiv 4 41 (exRoots 41 3) (by decide) (by decide)
  | 2 => evalEquiv 4 73 (exRoots 73 10) (by decide) (by decide)
  | 3 => evalEquiv 4 97 (exRoots 97 33) (by decide) (by decide)
  | _ + 4 => trivEquiv 4

def exNttP : Ntt 4 exP where
  equiv
  | 0 => evalEquiv 4 113 (exRoots 113 18) (by decide) (by decide)
  | 1 => evalEquiv 4 89 (exRoots 89 12) (by decide) (by decide)
  | _ + 2 => trivEquiv 4

/-- The exact quotient `⌊Σ y_i/q_i⌋`. -/
def exactV (l : List (ℕ × ℕ)) : ℕ := ⌊(l.map fun yq => (yq.1 / yq.2 : ℚ)).sum⌋₊

/-- A complete parameter set: `N = 4`, four moduli, two special primes, `gamma = 2`. -/
def exCtx : Ctx where
  N := 4
  q := exQ
  p := exP
  nQ := 4
  nP := 2
  gamma := 2
  nttQ := exNttQ
  nttP := exNttP
  fv := exactV

theorem exCtx_good : exCtx.Good where
  oddQ := by
    intro i
    match i with
    | 0 | 1 | 2 | 3 => decide
    | _ + 4 => exact Nat.coprime_one_left _
  oddP := by
    intro i
    match i with
    | 0 | 1 => decide
    | _ + 2 => exact Nat.coprime_one_left _
  posQ := by
    intro i
    match i with
    | 0 | 1 | 2 | 3 => decide
    | _ + 4 => exact Nat.one_pos
  posP := by
    intro i
    match i with
    | 0 | 1 => decide
    | _ + 2 => exact Nat.one_pos
  copQ := by
    show ∀ i j, i < 4 → j < 4 → i ≠ j → (exQ i).Coprime (exQ j)
    intro i j hi hj hij
    interval_cases i <;> interval_cases j <;> first | exact absurd rfl hij | decide
  copP := by
    show ∀ i j, i < 2 → j < 2 → i ≠ j → (exP i).Coprime (exP j)
    intro i j hi hj hij
    interval_cases i <;> interval_cases j <;> first | exact absurd rfl hij | decide
  copQP := by
    show ∀ i j, i < 4 → j < 2 → (exQ i).Coprime (exP j)
    intro i j hi hj
    interval_cases i <;> interval_cases j <;> decide
  nQ_pos := by decide
  alpha_pos := by decide

end MK
