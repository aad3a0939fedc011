import Verif.Lr
import Mathlib.Data.ZMod.Basic
import Mathlib.Algebra.BigOperators.Intervals
import Mathlib.Tactic.Ring
import Mathlib.Tactic.FieldSimp
import Mathlib.Tactic.LinearCombination

/-!
# Exact slot arithmetic and the specification of training
-/

namespace MK.Lr

open Finset

variable {K : Type} [Field K] {n : ℕ}

/-- A vector of `n` slots with cyclic indices. -/
abbrev Slots (n : ℕ) (K : Type) := ZMod n → K

/-- Rotation by `k` moves slot `i + k` to slot `i` (what `RotateNew` does to the slots:
`C37_RotateNew_slots`). -/
def rot (k : ℤ) (x : Slots n K) : Slots n K := fun i => x (i + (k : ZMod n))

/-- Exact arithmetic on slots. -/
def slotsHE (n : ℕ) (K : Type) [Field K] : HE Id (Slots n K) (Slots n K) where
  mulRelin _ x y := x * y
  mulPtxt x p := x * p
  add x y := x + y
  rotate x k := rot k x

/-- The slots of an encoded slice. -/
def toSlots (n : ℕ) (l : List K) : Slots n K := fun i => l.getD i.val 0

/-! ## Specification -/

/-- The cubic approximation of the sigmoid. -/
def sigma3 (p : Hyper K) (x : K) : K := p.c3 * x ^ 3 + p.c1 * x + p.c0

/-- `Σ_r (sigma3(z_r · v) - y_r) z_{r,c}` over the records `r < R` with `w` columns. -/
def grad (p : Hyper K) (w R : ℕ) (Z : ℕ → ℕ → K) (y : ℕ → K) (v : ℕ → K) (c : ℕ) : K :=
  ∑ r ∈ range R, (sigma3 p (∑ k ∈ range w, Z r k * v k) - y r) * Z r c

/-- A Nesterov step: `beta' = v - (gamma/n) grad(v)`, `v' = (1-eta) beta' + eta beta`. -/
def nesterov (p : Hyper K) (G : (ℕ → K) → ℕ → K) (a : ℕ) (st : (ℕ → K) × (ℕ → K)) :
    (ℕ → K) × (ℕ → K) :=
  let beta' := fun c => st.2 c - p.gamma / p.batchSize * G st.2 c
  (beta', fun c => (1 - p.eta a) * beta' c + p.eta a * st.1 c)

/-- `T` Nesterov steps from the given start; `G a` is the gradient used in step `a`. -/
def nesterovRun (p : Hyper K) (G : ℕ → (ℕ → K) → ℕ → K) :
    ℕ → (ℕ → K) × (ℕ → K) → (ℕ → K) × (ℕ → K)
  | 0, st => st
  | T + 1, st => nesterov p (G T) T (nesterovRun p G T st)

/-- Every row of `w` slots holds the vector `b`. -/
def Replicated (w : ℕ) (x : Slots n K) (b : ℕ → K) : Prop := ∀ i : ZMod n, x i = b (i.val % w)

/-! ## Loops -/

theorem forDouble_spec {σ : Type} (m : ℕ) (body : ℕ → σ → Id σ) (P : ℕ → σ → Prop)
    (step : ∀ t s, 2 ^ t < m → P t s → P (t + 1) (body (2 ^ t) s)) {s : σ} (h0 : P 0 s) :
    P (Nat.clog 2 m) (forDouble m 1 body s : Id σ) := by
  have key : ∀ k t s, t + k = Nat.clog 2 m → P t s →
      P (Nat.clog 2 m) (forDouble m (2 ^ t) body s : Id σ) := by
    intro k
    induction k with
    | zero =>
      intro t s ht hs
      rw [forDouble, dif_neg]
      · rw [← ht]; exact hs
      · rintro ⟨h, -⟩
        exact absurd h (not_lt.mpr (by
          rw [show t = Nat.clog 2 m by omega]; exact Nat.le_pow_clog (by norm_num) m))
    | succ k ih =>
      intro t s ht hs
      have hlt : 2 ^ t < m := by
        by_contra hc
        have := (Nat.clog_le_of_le_pow (b := 2) (not_lt.mp hc))
        omega
      rw [forDouble, dif_pos ⟨hlt, by positivity⟩]
      have : (2 : ℕ) ^ t * 2 = 2 ^ (t + 1) := by ring
      simp only [this]
      exact ih (t + 1) _ (by omega) (step t s hlt hs)
  exact key (Nat.clog 2 m) 0 s (by omega) h0

/-- The doubling loop of rotations by multiples of `d` sums `2^⌈log2 m⌉` shifted copies. -/
theorem forDouble_rot (m : ℕ) (d : ℕ → ℤ) (d0 : ℤ) (hd : ∀ i, d i = d0 * i) (x : Slots n K) :
    (forDouble m 1 (fun i ct => do
      let r ← (slotsHE n K).rotate ct (d i)
      (slotsHE n K).add ct r) x : Id (Slots n K)) =
    fun i => ∑ r ∈ range (2 ^ Nat.clog 2 m), x (i + ((d0 * r : ℤ) : ZMod n)) := by
  refine forDouble_spec (σ := Slots n K) m _
    (fun t s => s = fun i => ∑ r ∈ range (2 ^ t), x (i + ((d0 * r : ℤ) : ZMod n))) ?_ ?_
  · rintro t s - rfl
    funext i
    show (∑ r ∈ range (2 ^ t), x (i + ((d0 * r : ℤ) : ZMod n))) +
      ∑ r ∈ range (2 ^ t), x (i + ((d (2 ^ t) : ℤ) : ZMod n) + ((d0 * r : ℤ) : ZMod n)) = _
    rw [pow_succ, mul_two, sum_range_add]
    congr 1
    refine sum_congr rfl fun r _ => ?_
    rw [hd]
    push_cast
    congr 1; ring
  · funext i; simp

end MK.Lr
