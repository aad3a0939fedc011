import Mathlib.Data.Rat.Floor
import Mathlib.Data.Int.Log
import Mathlib.Algebra.Order.Round
import Mathlib.Tactic.Linarith
import Mathlib.Tactic.Ring
import Mathlib.Tactic.Positivity
import Mathlib.Tactic.NormNum
import Mathlib.Data.Sign.Basic

/-!
# float64

A `float64` is modelled by the rational it represents and every arithmetic operation by the
exact operation followed by a rounding function.  Not modelled: NaN, infinities, signed zero.  `Fl.Ok`
ignores overflow and underflow; `Props/Ieee` treats them.
-/

namespace MK

/-- Rounding of exact results to `float64`. -/
structure Fl where
  rnd : ℚ → ℚ

/-- What the proofs use of IEEE-754 double precision. -/
structure Fl.Ok (F : Fl) : Prop where
  rel : ∀ x, |F.rnd x - x| ≤ |x| / 2 ^ 53
  int : ∀ n : ℤ, |n| ≤ 2 ^ 53 → F.rnd n = n
  neg : ∀ x, F.rnd (-x) = - F.rnd x

/-- Exact arithmetic. -/
def Fl.exact : Fl := ⟨id⟩

theorem Fl.exact_ok : Fl.exact.Ok :=
  ⟨fun x => by simp only [Fl.exact, id, sub_self, abs_zero]; positivity, fun _ _ => rfl, fun _ => rfl⟩

/-- The distance of neighbouring 53-bit numbers around `x`. -/
def ulp (x : ℚ) : ℚ := 2 ^ (Int.log 2 |x| - 52)

/-- Rounding to 53 significant bits (ties away from zero). -/
def rnd53 (x : ℚ) : ℚ := SignType.sign x * (round (|x| / ulp x) * ulp x)

/-- A rounding to 53 bits with unbounded exponent. -/
def Fl.double : Fl := ⟨rnd53⟩

theorem ulp_pos (x : ℚ) : 0 < ulp x := zpow_pos (by norm_num) _

theorem rnd53_zero : rnd53 0 = 0 := by simp [rnd53]

theorem ulp_le {x : ℚ} (hx : x ≠ 0) : ulp x / 2 ≤ |x| / 2 ^ 53 := by
  have h := Int.zpow_log_le_self (b := 2) (r := |x|) (by norm_num) (abs_pos.mpr hx)
  have h' : ((2 : ℕ) : ℚ) ^ Int.log 2 |x| = ulp x * 2 ^ 52 := by
    unfold ulp
    rw [zpow_sub₀ (by norm_num)]
    norm_num
  rw [h'] at h
  rw [div_le_div_iff₀ (by norm_num) (by norm_num)]
  calc ulp x * 2 ^ 53 = ulp x * 2 ^ 52 * 2 := by ring
    _ ≤ |x| * 2 := by linarith

theorem Fl.double_ok : Fl.double.Ok where
  rel x := by
    show |rnd53 x - x| ≤ _
    rcases eq_or_ne x 0 with rfl | hx
    · rw [rnd53_zero]; simp
    · have hu := ulp_pos x
      have h1 : rnd53 x - x = SignType.sign x * ((round (|x| / ulp x) - |x| / ulp x) * ulp x) := by
        have : (SignType.sign x : ℚ) * |x| = x := sign_mul_abs x
        unfold rnd53
        rw [sub_mul, div_mul_cancel₀ _ hu.ne', mul_sub, this]
      rw [h1, abs_mul, abs_mul, abs_of_pos hu]
      have h2 : |((SignType.sign x : SignType) : ℚ)| ≤ 1 := by
        rcases SignType.sign x with _ | _ | _ <;> simp
      have h3 : |((round (|x| / ulp x) : ℤ) : ℚ) - |x| / ulp x| ≤ 1 / 2 := by
        rw [abs_sub_comm]; exact abs_sub_round _
      calc _ ≤ 1 * (1 / 2 * ulp x) :=
            mul_le_mul h2 (mul_le_mul_of_nonneg_right h3 hu.le) (by positivity) (by norm_num)
        _ = ulp x / 2 := by ring
        _ ≤ _ := ulp_le hx
  int n hn := by
    show rnd53 n = n
    rcases eq_or_ne n 0 with rfl | hn0
    · simpa using rnd53_zero
    · have hu := ulp_pos (n : ℚ)
      have hpos : (0 : ℚ) < |(n : ℚ)| := abs_pos.mpr (by exact_mod_cast hn0)
      have h0 : 0 ≤ Int.log 2 |(n : ℚ)| := by
        rw [← Int.zpow_le_iff_le_log (by norm_num) hpos]
        simp only [zpow_zero]
        exact_mod_cast Int.one_le_abs hn0
      have h53 : Int.log 2 |(n : ℚ)| ≤ 53 := by
        have : Int.log 2 |(n : ℚ)| < 54 := by
          rw [← Int.lt_zpow_iff_log_lt (by norm_num) hpos]
          have : |(n : ℚ)| ≤ 2 ^ 53 := by exact_mod_cast hn
          calc |(n : ℚ)| ≤ 2 ^ 53 := this
            _ < ((2 : ℕ) : ℚ) ^ (54 : ℤ) := by norm_num
        omega
      have hz : ∃ z : ℤ, |(n : ℚ)| / ulp n = z := by
        rcases lt_or_eq_of_le h53 with h | h
        · have : 0 ≤ 52 - Int.log 2 |(n : ℚ)| := by omega
          obtain ⟨k, hk⟩ := Int.eq_ofNat_of_zero_le this
          refine ⟨|n| * 2 ^ k, ?_⟩
          have e : Int.log 2 |(n : ℚ)| - 52 = -(k : ℤ) := by omega
          unfold ulp
          rw [e, zpow_neg, div_inv_eq_mul]
          push_cast
          simp
        · have hle := Int.zpow_log_le_self (b := 2) (r := |(n : ℚ)|) (by norm_num) hpos
          rw [h] at hle
          have : |(n : ℚ)| ≤ 2 ^ 53 := by exact_mod_cast hn
          have e : |(n : ℚ)| = 2 ^ 53 := le_antisymm this (by exact_mod_cast hle)
          refine ⟨2 ^ 52, ?_⟩
          unfold ulp
          rw [h, e]
          norm_num
      obtain ⟨z, hz⟩ := hz
      unfold rnd53
      rw [hz, round_intCast, ← hz, div_mul_cancel₀ _ hu.ne', sign_mul_abs]
  neg x := by
    show rnd53 (-x) = - rnd53 x
    unfold rnd53
    have : ulp (-x) = ulp x := by unfold ulp; rw [abs_neg]
    rw [this, abs_neg, Left.sign_neg]
    push_cast
    ring

variable {F : Fl}

theorem Fl.Ok.zero (h : F.Ok) : F.rnd 0 = 0 := by
  have := h.int 0 (by norm_num)
  simpa using this

theorem Fl.Ok.one (h : F.Ok) : F.rnd 1 = 1 := by
  have := h.int 1 (by norm_num)
  simpa using this

theorem Fl.Ok.nat (h : F.Ok) {n : ℕ} (hn : n ≤ 2 ^ 53) : F.rnd n = n := by
  have := h.int n (by rw [Nat.abs_cast]; exact_mod_cast hn)
  simpa using this

theorem Fl.Ok.bounds (h : F.Ok) {x : ℚ} (hx : 0 ≤ x) :
    x * (1 - 1 / 2 ^ 53) ≤ F.rnd x ∧ F.rnd x ≤ x * (1 + 1 / 2 ^ 53) := by
  have := abs_le.mp (h.rel x)
  rw [abs_of_nonneg hx] at this
  constructor <;> linarith [this.1, this.2]

theorem Fl.Ok.pos (h : F.Ok) {x : ℚ} (hx : 0 < x) : 0 < F.rnd x := by
  refine lt_of_lt_of_le ?_ (h.bounds hx.le).1
  apply mul_pos hx; norm_num

theorem Fl.Ok.nonneg (h : F.Ok) {x : ℚ} (hx : 0 ≤ x) : 0 ≤ F.rnd x := by
  rcases hx.eq_or_lt with rfl | hx
  · rw [h.zero]
  · exact (h.pos hx).le

theorem Fl.Ok.eq_zero_iff (h : F.Ok) {x : ℚ} : F.rnd x = 0 ↔ x = 0 := by
  constructor
  · intro hx
    rcases lt_trichotomy x 0 with h' | h' | h'
    · have := h.pos (neg_pos.mpr h')
      rw [h.neg, hx] at this
      simp at this
    · exact h'
    · exact absurd hx (h.pos h').ne'
  · rintro rfl; exact h.zero

end MK
