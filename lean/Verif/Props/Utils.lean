import Verif.Utils
import Verif.WordSpec
import Verif.EvalSpec
import Verif.Props.Linear
import Mathlib.Data.Nat.Log
import Mathlib.FieldTheory.Finite.Basic

/-!
# C44, C45, C46: helper functions and data loading
-/

namespace MK.Utils

open MK.Word

/-! ## C44 -/

/-- The `k`-bit reversal of `i`. -/
def bitRev (k i : ℕ) : ℕ := Nat.ofBits fun b : Fin k => i.testBit (k - 1 - b)

/-- The reversed counter after `i` steps, for the weights `N/2, N/4, …`. -/
def J : ℕ → ℕ → ℕ → ℕ
  | 0, _, _ => 0
  | k + 1, N, i => i % 2 * (N / 2) + J k (N / 2) (i / 2)

theorem J_lt {k N : ℕ} (h : 2 ^ k ≤ N) (i : ℕ) : J k N i < N := by
  induction k generalizing N i with
  | zero => simp only [pow_zero] at h; simp only [J]; omega
  | succ k ih =>
    have h1 : 2 ^ k ≤ N / 2 := by rw [Nat.le_div_iff_mul_le (by norm_num), ← pow_succ]; exact h
    have h2 := ih h1 (i / 2)
    simp only [J]
    rcases Nat.mod_two_eq_zero_or_one i with e | e <;> rw [e] <;> omega

theorem J_zero (k N : ℕ) : J k N 0 = 0 := by
  induction k generalizing N with
  | zero => rfl
  | succ k ih => simp only [J, Nat.zero_mod, Nat.zero_div, zero_mul, zero_add, ih]

theorem carry_J {k N i : ℕ} (h : 2 ^ k ≤ N) (hi : i + 1 < 2 ^ k) :
    ∃ j b, carry (J k N i) (N / 2) = some (j, b) ∧ j + b = J k N (i + 1) := by
  induction k generalizing N i with
  | zero => simp at hi
  | succ k ih =>
    have h1 : 2 ^ k ≤ N / 2 := by rw [Nat.le_div_iff_mul_le (by norm_num), ← pow_succ]; exact h
    have h2 := J_lt h1 (i / 2)
    have hpos : N / 2 ≠ 0 := by have := Nat.one_le_two_pow (n := k); omega
    rw [carry, dif_neg hpos]
    rw [pow_succ] at hi
    rcases Nat.mod_two_eq_zero_or_one i with e | e
    · simp only [J, e, zero_mul, zero_add]
      rw [if_neg (by omega)]
      refine ⟨_, _, rfl, ?_⟩
      have e1 : (i + 1) % 2 = 1 := by omega
      have e2 : (i + 1) / 2 = i / 2 := by omega
      rw [e1, e2]; omega
    · simp only [J, e, one_mul]
      rw [if_pos (by omega), Nat.add_sub_cancel_left]
      obtain ⟨j, b, h3, h4⟩ := ih h1 (i := i / 2) (by omega)
      refine ⟨j, b, h3, ?_⟩
      have e1 : (i + 1) % 2 = 0 := by omega
      have e2 : (i + 1) / 2 = i / 2 + 1 := by omega
      rw [e1, e2, h4]; omega

theorem carry_J_last {k N : ℕ} (h : 2 ^ k ≤ N) (h' : N < 2 ^ (k + 1)) :
    carry (J k N (2 ^ k - 1)) (N / 2) = none := by
  induction k generalizing N with
  | zero =>
    rw [carry, dif_pos]
    simp at h h'; omega
  | succ k ih =>
    have h1 : 2 ^ k ≤ N / 2 := by rw [Nat.le_div_iff_mul_le (by norm_num), ← pow_succ]; exact h
    have h3 : N / 2 < 2 ^ (k + 1) := by rw [Nat.div_lt_iff_lt_mul (by norm_num), ← pow_succ]; exact h'
    have h0 := Nat.one_le_two_pow (n := k)
    rw [carry, dif_neg (by omega)]
    have e1 : (2 ^ (k + 1) - 1) % 2 = 1 := by rw [pow_succ]; omega
    have e2 : (2 ^ (k + 1) - 1) / 2 = 2 ^ k - 1 := by rw [pow_succ]; omega
    simp only [J, e1, e2, one_mul]
    rw [if_pos (by omega), Nat.add_sub_cancel_left]
    exact ih h1 h3

theorem J_testBit (k i b : ℕ) :
    (J k (2 ^ k) i).testBit b = (decide (b < k) && i.testBit (k - 1 - b)) := by
  induction k generalizing i b with
  | zero => simp [J]
  | succ k ih =>
    have e : 2 ^ (k + 1) / 2 = 2 ^ k := by rw [pow_succ]; omega
    have hlt := J_lt (le_refl (2 ^ k)) (i / 2)
    simp only [J, e]
    rw [mul_comm, Nat.testBit_two_pow_mul_add _ hlt]
    by_cases hb : b < k
    · rw [if_pos hb, ih, show k + 1 - 1 - b = k - 1 - b + 1 by omega, Nat.testBit_succ]
      simp [hb, show b < k + 1 by omega]
    · rw [if_neg hb]
      by_cases hb' : b = k
      · subst hb'
        simp only [Nat.sub_self, Nat.add_sub_cancel, Nat.lt_succ_self, decide_true, Bool.true_and]
        rcases Nat.mod_two_eq_zero_or_one i with h | h <;> simp [Nat.testBit_zero, h]
      · have : ¬ b < k + 1 := by omega
        simp only [this, decide_false, Bool.false_and]
        apply Nat.testBit_lt_two_pow
        have : 2 ^ 1 ≤ 2 ^ (b - k) := Nat.pow_le_pow_right (by norm_num) (by omega)
        have := Nat.mod_lt i (show 0 < 2 by norm_num)
        omega

theorem bitRev_testBit (k i b : ℕ) :
    (bitRev k i).testBit b = (decide (b < k) && i.testBit (k - 1 - b)) := by
  by_cases h : b < k
  · simp [bitRev, Nat.testBit_ofBits_lt _ _ h, h]
  · simp [bitRev, Nat.testBit_ofBits_ge _ _ (not_lt.mp h), h]

theorem J_eq (k i : ℕ) : J k (2 ^ k) i = bitRev k i :=
  Nat.eq_of_testBit_eq fun b => by rw [J_testBit, bitRev_testBit]

theorem bitRev_lt (k i : ℕ) : bitRev k i < 2 ^ k := Nat.ofBits_lt_two_pow _

/-- Reversing twice. -/
theorem bitRev_bitRev {k i : ℕ} (hi : i < 2 ^ k) : bitRev k (bitRev k i) = i := by
  refine Nat.eq_of_testBit_eq fun b => ?_
  rw [bitRev_testBit, bitRev_testBit]
  by_cases h : b < k
  · rw [show k - 1 - (k - 1 - b) = b by omega]
    simp [h, show k - 1 - b < k by omega]
  · rw [Nat.testBit_lt_two_pow (lt_of_lt_of_le hi (Nat.pow_le_pow_right (by norm_num) (not_lt.mp h)))]
    simp [h]

theorem revStep_some {α : Type _} {N i j bit j0 : ℕ} {s : List α}
    (h : carry j0 (N / 2) = some (j, bit)) (hi : i < s.length) (hj : j + bit < s.length) :
    ∃ s', revStep N i (some (s, j0)) = .ok (some (s', j + bit)) ∧ s'.length = s.length ∧
      ∀ p, s'[p]? = if i < j + bit ∧ p = i then s[j + bit]?
        else if i < j + bit ∧ p = j + bit then s[i]? else s[p]? := by
  unfold revStep
  simp only [h]
  by_cases hlt : i < j + bit
  · rw [if_pos hlt, idx_of_lt hj, Go.ok_bind, idx_of_lt hi, Go.ok_bind, upd_of_lt hi, Go.ok_bind,
      upd_of_lt (by rw [List.length_set]; exact hj), Go.ok_bind]
    refine ⟨_, rfl, by simp, fun p => ?_⟩
    by_cases e1 : p = i
    · subst e1
      rw [if_pos ⟨hlt, rfl⟩, List.getElem?_set_ne (by omega), List.getElem?_set_self hi,
        List.getElem?_eq_getElem hj]
    · rw [if_neg fun h => e1 h.2]
      by_cases e2 : p = j + bit
      · subst e2
        rw [if_pos ⟨hlt, rfl⟩, List.getElem?_set_self (by rw [List.length_set]; exact hj),
          List.getElem?_eq_getElem hi]
      · rw [if_neg fun h => e2 h.2, List.getElem?_set_ne (Ne.symm e2),
          List.getElem?_set_ne (Ne.symm e1)]
  · rw [if_neg hlt]
    exact ⟨s, rfl, rfl, fun p => by rw [if_neg fun h => hlt h.1, if_neg fun h => hlt h.1]⟩

/-- For `N = 2^k` the first `N` entries are permuted by bit reversal and the others stay. -/
theorem C44_bit_reverse {α : Type _} (k : ℕ) (slice : List α) (hlen : 2 ^ k ≤ slice.length) :
    ∃ out, SliceBitReverse slice (2 ^ k) = .ok (some out) ∧ out.length = slice.length ∧
      (∀ i < 2 ^ k, out[i]? = slice[bitRev k i]?) ∧ ∀ i, 2 ^ k ≤ i → out[i]? = slice[i]? := by
  have hpos := Nat.one_le_two_pow (n := k)
  obtain ⟨st, h1, s, h2, h3, h4⟩ := forN_inv (2 ^ k - 1) (fun i => revStep (2 ^ k) (i + 1))
    (fun t st => ∃ s, st = some (s, bitRev k t) ∧ s.length = slice.length ∧ ∀ p, s[p]? =
      if p < 2 ^ k ∧ min p (bitRev k p) ≤ t then slice[bitRev k p]? else slice[p]?)
    (some (slice, 0)) (by
      refine ⟨slice, ?_, rfl, fun p => ?_⟩
      · rw [← J_eq, J_zero]
      · split
        · next h =>
          rcases Nat.le_zero.mp h.2 ▸ (min_choice p (bitRev k p)) with e | e
          · rw [← e, ← J_eq, J_zero]
          · have e2 := bitRev_bitRev h.1
            rw [← e, ← J_eq, J_zero] at e2
            rw [← e, e2]
        · rfl) (by
      rintro t ht st ⟨s, rfl, hs, hp⟩
      obtain ⟨j, b, c1, c2⟩ := carry_J (k := k) (le_refl (2 ^ k)) (i := t) (by omega)
      rw [J_eq] at c1 c2
      have hlt := bitRev_lt k (t + 1)
      have hinv := bitRev_bitRev (k := k) (i := t + 1) (by omega)
      obtain ⟨s', e1, e2, e3⟩ := revStep_some (i := t + 1) c1 (by omega) (s := s) (by omega)
      rw [c2] at e1 e3
      refine ⟨_, e1, s', rfl, e2.trans hs, fun p => ?_⟩
      rw [e3]
      set r := bitRev k (t + 1) with hr
      by_cases a1 : p = t + 1
      · subst a1
        rw [← hr, if_pos (show t + 1 < 2 ^ k ∧ min (t + 1) r ≤ t + 1 from ⟨by omega, min_le_left _ _⟩)]
        by_cases hlt' : t + 1 < r
        · rw [if_pos ⟨hlt', rfl⟩, hp, if_neg]
          rintro ⟨-, h⟩
          rw [hinv] at h
          rw [min_eq_right hlt'.le] at h; omega
        · rw [if_neg fun h => hlt' h.1, if_neg fun h => hlt' h.1, hp, ← hr]
          by_cases he : r = t + 1
          · rw [he]; split <;> rfl
          · rw [if_pos ⟨by omega, by rw [min_eq_right (by omega)]; omega⟩]
      · rw [if_neg fun h => a1 h.2]
        by_cases a2 : p = r
        · subst a2
          rw [hinv]
          by_cases hlt' : t + 1 < r
          · rw [if_pos ⟨hlt', rfl⟩, hp, ← hr,
              if_neg (by rintro ⟨-, h⟩; rw [min_eq_left hlt'.le] at h; omega),
              if_pos ⟨hlt, min_le_right _ _⟩]
          · rw [if_neg fun h => hlt' h.1, hp, hinv,
              if_pos ⟨hlt, by rw [min_eq_left (by omega)]; omega⟩,
              if_pos ⟨hlt, min_le_right _ _⟩]
        · rw [if_neg fun h => a2 h.2, hp]
          by_cases hpN : p < 2 ^ k
          · have a3 : bitRev k p ≠ t + 1 := fun h => a2 (by
              rw [hr, ← h, bitRev_bitRev hpN])
            have : (p < 2 ^ k ∧ min p (bitRev k p) ≤ t) ↔
                (p < 2 ^ k ∧ min p (bitRev k p) ≤ t + 1) := by
              rcases min_choice p (bitRev k p) with e | e <;> rw [e] <;> omega
            simp only [this]
          · rw [if_neg fun h => hpN h.1, if_neg fun h => hpN h.1])
  subst h2
  refine ⟨s, ?_, h3, fun i hi => ?_, fun i hi => ?_⟩
  · unfold SliceBitReverse
    rw [h1]; rfl
  · rw [h4, if_pos ⟨hi, (min_le_left _ _).trans (by omega)⟩]
  · rw [h4, if_neg (by omega)]

/-- Applying it twice gives the slice back. -/
theorem C44_involutive {α : Type _} (k : ℕ) (slice : List α) (hlen : 2 ^ k ≤ slice.length) :
    ∃ out, SliceBitReverse slice (2 ^ k) = .ok (some out) ∧
      SliceBitReverse out (2 ^ k) = .ok (some slice) := by
  obtain ⟨out, h1, h2, h3, h4⟩ := C44_bit_reverse k slice hlen
  obtain ⟨out', g1, g2, g3, g4⟩ := C44_bit_reverse k out (h2 ▸ hlen)
  refine ⟨out, h1, ?_⟩
  rw [g1]
  congr 2
  refine List.ext_getElem? fun i => ?_
  by_cases hi : i < 2 ^ k
  · rw [g3 i hi, h3 _ (bitRev_lt k i), bitRev_bitRev hi]
  · rw [g4 i (not_lt.mp hi), h4 i (not_lt.mp hi)]

/-- For any other positive `N` the helper does not terminate. -/
theorem C44_not_power {α : Type _} {N : ℕ} (hN : 0 < N) (hp : ∀ k, N ≠ 2 ^ k) (slice : List α)
    (hlen : N ≤ slice.length) : SliceBitReverse slice N = .ok none := by
  set k := Nat.log 2 N with hk
  have h1 : 2 ^ k ≤ N := Nat.pow_log_le_self 2 hN.ne'
  have h2 : N < 2 ^ (k + 1) := Nat.lt_pow_succ_log_self (by norm_num) N
  have h3 := hp k
  have hpos := Nat.one_le_two_pow (n := k)
  obtain ⟨st, e1, -, e2⟩ := forN_inv (N - 1) (fun i => revStep N (i + 1))
    (fun t st => (t < 2 ^ k → ∃ s, st = some (s, J k N t) ∧ s.length = slice.length) ∧
      (2 ^ k ≤ t → st = none)) (some (slice, 0))
    ⟨fun _ => ⟨slice, by rw [J_zero], rfl⟩, fun h => by omega⟩ (by
      rintro t ht st ⟨a1, a2⟩
      rcases lt_trichotomy (t + 1) (2 ^ k) with h | h | h
      · obtain ⟨s, rfl, hs⟩ := a1 (by omega)
        obtain ⟨j, b, c1, c2⟩ := carry_J h1 h
        have := J_lt h1 (t + 1)
        obtain ⟨s', e1, e2, -⟩ := revStep_some (i := t + 1) c1 (s := s) (by omega) (by omega)
        exact ⟨_, e1, fun _ => ⟨s', by rw [c2], e2.trans hs⟩, fun h' => by omega⟩
      · obtain ⟨s, rfl, hs⟩ := a1 (by omega)
        have c := carry_J_last h1 h2
        rw [← h, Nat.add_sub_cancel] at c
        exact ⟨none, by simp only [revStep, c], fun h' => by omega, fun _ => rfl⟩
      · obtain rfl := a2 (by omega)
        exact ⟨none, rfl, fun h' => by omega, fun _ => rfl⟩)
  obtain rfl := e2 (by omega)
  unfold SliceBitReverse
  rw [e1]; rfl

/-! ## C45 -/

theorem C45_interfaceMod_uint64 {q : ℕ} (hq : 0 < q) (x : ℕ) :
    ∃ r, interfaceMod (.u64 x) q = .ok r ∧ r < q ∧ r ≡ x [MOD q] :=
  ⟨x % q, by simp [interfaceMod, hq.ne'], Nat.mod_lt _ hq, Nat.mod_modEq _ _⟩

theorem C45_interfaceMod_big {q : ℕ} (hq : 0 < q) (x : ℤ) :
    ∃ r, interfaceMod (.big x) q = .ok r ∧ r < q ∧ (r : ℤ) ≡ x [ZMOD q] := by
  have h1 := Int.emod_nonneg x (show (q : ℤ) ≠ 0 by omega)
  have h2 := Int.emod_lt_of_pos x (show (0 : ℤ) < q by omega)
  by_cases h : x = 0
  · exact ⟨0, by simp [interfaceMod, h], hq, by rw [h]; rfl⟩
  · refine ⟨(x % q).toNat, by simp [interfaceMod, h, hq.ne'], by omega, ?_⟩
    rw [Int.toNat_of_nonneg h1]
    exact Int.mod_modEq _ _

/-- An `int64` gives a congruent word, which is reduced only if `0 ≤ x < q`, or `x < 0` is not a
multiple of `q`: positive values are returned as they are, negative multiples of `q` give `q`. -/
theorem C45_interfaceMod_int64 {q : ℕ} (hq : 0 < q) (hq' : q < 2 ^ 63) {x : ℤ} (hx : -2 ^ 63 ≤ x)
    (hx' : x < 2 ^ 63) :
    ∃ r, interfaceMod (.i64 x) q = .ok r ∧ (r : ℤ) ≡ x [ZMOD q] ∧
      (r < q ↔ (0 ≤ x ∧ x < q) ∨ (x < 0 ∧ ¬ (q : ℤ) ∣ x)) ∧ (x < 0 → (q : ℤ) ∣ x → r = q) ∧
      (0 ≤ x → (r : ℤ) = x) := by
  have hu : ∀ y : ℤ, 0 ≤ y → y < 2 ^ 63 → ((asUint64 y : ℕ) : ℤ) = y := by
    intro y h1 h2
    unfold asUint64
    rw [Int.emod_eq_of_lt h1 (by omega), Int.toNat_of_nonneg h1]
  have hi : ∀ y : ℤ, -2 ^ 63 ≤ y → y < 2 ^ 63 → asInt64 y = y := by
    intro y h1 h2
    unfold asInt64
    apply Int.bmod_eq_of_le_mul_two <;> norm_num <;> omega
  have hqi : asInt64 q = q := hi q (by omega) (by omega)
  rcases lt_trichotomy x 0 with h | h | h
  · have t1 : x.tmod q ≤ 0 := by
      have h3 := Int.tmod_nonneg (q : ℤ) (show 0 ≤ -x by omega)
      rw [Int.neg_tmod] at h3; omega
    have t2 : -(q : ℤ) < x.tmod q := by
      have := Int.lt_tmod_of_pos x (show (0 : ℤ) < q by omega)
      exact this
    have hsum : asInt64 (asInt64 q + x.tmod (asInt64 q)) = q + x.tmod q := by
      rw [hqi, hi _ (by omega) (by omega)]
    have hval : ((asUint64 (asInt64 (asInt64 q + x.tmod (asInt64 q))) : ℕ) : ℤ) = q + x.tmod q := by
      rw [hsum, hu _ (by omega) (by omega)]
    have hcong : x.tmod q ≡ x [ZMOD q] := by
      rw [Int.modEq_iff_dvd]
      exact ⟨x.tdiv q, by have := Int.mul_tdiv_add_tmod x q; linarith⟩
    have hz : x.tmod q = 0 ↔ (q : ℤ) ∣ x := Int.dvd_iff_tmod_eq_zero.symm
    refine ⟨asUint64 (asInt64 (asInt64 q + x.tmod (asInt64 q))), ?_, ?_, ?_, ?_, by omega⟩
    · simp only [interfaceMod]
      rw [if_neg (by omega), if_pos h, if_neg (by rw [hqi]; omega)]
    · rw [hval]
      calc (q : ℤ) + x.tmod q ≡ 0 + x.tmod q [ZMOD q] :=
            Int.ModEq.add_right _ (by rw [Int.modEq_zero_iff_dvd])
        _ = x.tmod q := zero_add _
        _ ≡ x [ZMOD q] := hcong
    · rw [← hz]; omega
    · rw [← hz]; omega
  · subst h
    refine ⟨0, by simp [interfaceMod], rfl, by simp [hq], by simp, by simp⟩
  · have := hu x h.le hx'
    refine ⟨asUint64 x, by simp [interfaceMod, h], by rw [this], by omega, by omega, fun _ => this⟩

theorem C45_interfaceMod_other (q : ℕ) : (interfaceMod .other q).panics := ⟨_, rfl⟩

/-- `scaleUpExact` returns a word of at most `q` congruent to the rounded product, whose distance
from `n·value` is bounded; it returns `q` itself exactly for negative values whose rounded product
is a multiple of `q`. -/
theorem C45_scaleUpExact {F : Fl} (hF : F.Ok) (value : ℚ) {n : ℚ} (hn : 0 ≤ n) {q : ℕ} (hq : 0 < q) :
    ∃ z : ℤ, |(z : ℚ) - n * value| ≤ 1 / 2 + (3 * |n * value| + 1) / 2 ^ 53 ∧
      (scaleUpExact F value n q : ℤ) ≡ z [ZMOD q] ∧ scaleUpExact F value n q ≤ q ∧
      (scaleUpExact F value n q = q ↔ value < 0 ∧ (q : ℤ) ∣ z) := by
  refine ⟨roundConst F value n, roundConst_error hF value hn, ?_⟩
  have hfl : ∀ y : ℚ, 0 ≤ y → ((⌊F.rnd (F.rnd y + 1 / 2)⌋₊ : ℕ) : ℤ) =
      ⌊F.rnd (F.rnd y + 1 / 2)⌋ := by
    intro y hy
    exact Int.natCast_floor_eq_floor (hF.nonneg (by have := hF.nonneg hy; linarith))
  unfold scaleUpExact roundConst
  by_cases hneg : value < 0
  · have h7 : |n * value| = -n * value := by
      rw [abs_of_nonpos (mul_nonpos_of_nonneg_of_nonpos hn hneg.le)]; ring
    have h8 := hfl (-n * value) (by rw [← h7]; exact abs_nonneg _)
    simp only [hneg, if_true, true_and, h7, ← h8]
    generalize ⌊F.rnd (F.rnd (-n * value) + 1 / 2)⌋₊ = z
    have hlt := Nat.mod_lt z hq
    refine ⟨?_, by omega, ?_⟩
    · rw [Nat.cast_sub hlt.le, neg_one_mul]
      calc (q : ℤ) - ((z % q : ℕ) : ℤ) ≡ 0 - z [ZMOD q] :=
            Int.ModEq.sub (by rw [Int.modEq_zero_iff_dvd]) (by push_cast; exact Int.mod_modEq _ _)
        _ = -z := zero_sub _
    · rw [neg_one_mul, dvd_neg, Int.natCast_dvd_natCast, Nat.dvd_iff_mod_eq_zero]
      omega
  · have h7 : |n * value| = n * value := abs_of_nonneg (mul_nonneg hn (not_lt.mp hneg))
    have h8 := hfl (n * value) (by rw [← h7]; exact abs_nonneg _)
    simp only [hneg, if_false, false_and, h7, ← h8, one_mul, iff_false]
    generalize ⌊F.rnd (F.rnd (n * value) + 1 / 2)⌋₊ = z
    have hlt := Nat.mod_lt z hq
    exact ⟨by push_cast; exact Int.mod_modEq _ _, hlt.le, hlt.ne⟩

/-- Entry `i` of the chain is the product of the first `i + 1` moduli; an empty list panics. -/
theorem C45_genBigIntChain (Q : List ℕ) :
    (Q = [] → (genBigIntChain Q).panics) ∧
    (Q ≠ [] → ∃ chain, genBigIntChain Q = .ok chain ∧ chain.length = Q.length ∧
      ∀ i < Q.length, chain[i]? = some (Q.take (i + 1)).prod) := by
  constructor
  · rintro rfl
    exact ⟨_, rfl⟩
  · intro hQ
    have hpos : 0 < Q.length := List.length_pos_iff.mpr hQ
    unfold genBigIntChain
    rw [idx_of_lt hpos, Go.ok_bind, upd_of_lt (by simpa using hpos), Go.ok_bind]
    obtain ⟨c, h1, h2, h3⟩ := forN_inv (Q.length - 1) (fun i chain => do
        let q ← idx Q (i + 1)
        let c ← idx chain i
        upd chain (i + 1) (q * c))
      (fun t c => c.length = Q.length ∧ ∀ i ≤ t, c[i]? = some (Q.take (i + 1)).prod)
      ((List.replicate Q.length 0).set 0 Q[0]) (by
        refine ⟨by simp, fun i hi => ?_⟩
        obtain rfl : i = 0 := by omega
        rw [List.getElem?_set_self (by simpa using hpos)]
        cases Q with
        | nil => simp at hpos
        | cons a t => simp) (by
        rintro t ht c ⟨hl, hc⟩
        rw [idx_of_lt (show t + 1 < Q.length by omega), Go.ok_bind, idx_of_get? (hc t le_rfl),
          Go.ok_bind, upd_of_lt (by omega)]
        refine ⟨_, rfl, by simpa using hl, fun i hi => ?_⟩
        by_cases he : i = t + 1
        · subst he
          rw [List.getElem?_set_self (by omega), List.take_succ_eq_append_getElem (i := t + 1) (by omega),
            List.prod_append, List.prod_singleton, mul_comm]
        · rw [List.getElem?_set_ne (by omega), hc i (by omega)])
    exact ⟨c, h1, h2, fun i hi => h3 i (by omega)⟩

theorem foldl_mul (P : List ℕ) (a : ℕ) : P.foldl (fun acc p => acc * p) a = a * P.prod := by
  induction P generalizing a with
  | nil => simp
  | cons p t ih => rw [List.foldl_cons, ih, List.prod_cons, mul_assoc]

/-- Entry `i` is the Montgomery form of the inverse of `∏ P` modulo the prime `Q[i]`. -/
theorem C45_GenSwitchkeysRescalingParams (Q P : List ℕ) :
    (GenSwitchkeysRescalingParams Q P).length = Q.length ∧
    ∀ i (hi : i < Q.length), Q[i].Prime → (∀ p ∈ P, Nat.Coprime p Q[i]) →
      ∃ r, (GenSwitchkeysRescalingParams Q P)[i]? = some r ∧ r < Q[i] ∧
        r * P.prod ≡ 2 ^ 64 [MOD Q[i]] := by
  refine ⟨by simp [GenSwitchkeysRescalingParams], fun i hi hp hc => ?_⟩
  refine ⟨MForm (ModExp (P.foldl (fun acc pj => acc * pj) 1 % Q[i]) (Q[i] - 2) Q[i]) Q[i], ?_,
    Nat.mod_lt _ hp.pos, ?_⟩
  · simp [GenSwitchkeysRescalingParams, hi]
  · rw [foldl_mul, one_mul]
    generalize Q[i] = q at *
    have : Fact q.Prime := ⟨hp⟩
    rw [← ZMod.natCast_eq_natCast_iff]
    unfold MForm ModExp
    rw [Nat.cast_mul, ZMod.natCast_mod, Nat.cast_mul, ZMod.natCast_mod, Nat.cast_pow, ZMod.natCast_mod]
    have hne : ((P.prod : ℕ) : ZMod q) ≠ 0 := by
      rw [Ne, ZMod.natCast_eq_zero_iff]
      intro h
      have hco : Nat.Coprime P.prod q := Nat.coprime_list_prod_left_iff.mpr hc
      have := Nat.Coprime.eq_one_of_dvd hco.symm h
      exact hp.one_lt.ne' this
    have hfer := ZMod.pow_card_sub_one_eq_one hne
    have h2 := hp.two_le
    rw [show q - 1 = q - 2 + 1 by omega, pow_succ] at hfer
    calc ((P.prod : ℕ) : ZMod q) ^ (q - 2) * (montR : ℕ) * (P.prod : ℕ)
        = ((P.prod : ℕ) : ZMod q) ^ (q - 2) * (P.prod : ℕ) * (montR : ℕ) := by ring
      _ = ((2 ^ 64 : ℕ) : ZMod q) := by rw [hfer, one_mul]; rfl

/-! `scaleUpVecExact` -/

/-- Away from the boundary the two branches compute `scaleUpExact`. -/
theorem scaleUpEntry_eq {F : Fl} {u64 : ℚ → ℕ} (hu : ∀ x, 0 ≤ x → x < 2 ^ 64 → u64 x = ⌊x⌋₊)
    (hF : F.Ok) {value n : ℚ} (hn : 0 ≤ n) (q : ℕ)
    (hb : F.rnd (n * |value|) ≤ 2 ^ 64 → F.rnd (F.rnd (n * |value|) + 1 / 2) < 2 ^ 64) :
    scaleUpEntry F u64 value n q = scaleUpExact F value n q := by
  have h0 : 0 ≤ F.rnd (F.rnd (n * |value|) + 1 / 2) :=
    hF.nonneg (by have := hF.nonneg (mul_nonneg hn (abs_nonneg value)); linarith)
  unfold scaleUpEntry scaleUpExact
  by_cases hneg : value < 0
  · have e : n * |value| = -n * value := by rw [abs_of_neg hneg]; ring
    rw [e] at hb h0 ⊢
    simp only [hneg, if_true]
    split
    · rfl
    · next h => rw [hu _ h0 (hb (not_lt.mp h))]
  · have e : n * |value| = n * value := by rw [abs_of_nonneg (not_lt.mp hneg)]
    rw [e] at hb h0 ⊢
    simp only [hneg, if_false]
    split
    · rfl
    · next h => rw [hu _ h0 (hb (not_lt.mp h))]

/-- `coeffs[j][i]` -/
def at2 {α : Type _} (c : List (List α)) (j i : ℕ) : Option α := c[j]?.bind (·[i]?)

theorem upd2_spec {c : List (List ℕ)} {M j i : ℕ} (hM : ∀ row ∈ c, row.length = M)
    (hj : j < c.length) (hi : i < M) (v : ℕ) :
    ∃ c', upd2 c j i v = .ok c' ∧ c'.length = c.length ∧ (∀ row ∈ c', row.length = M) ∧
      ∀ j' i', at2 c' j' i' = if j' = j ∧ i' = i then some v else at2 c j' i' := by
  have hl : i < c[j].length := by rw [hM _ (List.getElem_mem hj)]; exact hi
  refine ⟨c.set j (c[j].set i v), ?_, by simp, fun row hr => ?_, fun j' i' => ?_⟩
  · unfold upd2
    rw [idx_of_lt hj, Go.ok_bind, upd_of_lt hl, Go.ok_bind, upd_of_lt hj]
  · rcases List.mem_or_eq_of_mem_set hr with h | h
    · exact hM row h
    · rw [h, List.length_set]; exact hM _ (List.getElem_mem hj)
  · unfold at2
    by_cases e : j' = j
    · subst e
      rw [List.getElem?_set_self hj, List.getElem?_eq_getElem hj, Option.bind_some, Option.bind_some]
      by_cases e2 : i' = i
      · subst e2
        rw [if_pos ⟨rfl, rfl⟩, List.getElem?_set_self hl]
      · rw [if_neg fun h => e2 h.2, List.getElem?_set_ne (Ne.symm e2)]
    · rw [if_neg fun h => e h.1, List.getElem?_set_ne (Ne.symm e)]

/-- `scaleUpVecExact` stores `scaleUpExact(values[i], n, moduli[j])` in `coeffs[j][i]` and clears the
remaining columns, provided no product rounds to the edge `2^64` of the conversion to `uint64`. -/
theorem C45_scaleUpVecExact {F : Fl} (hF : F.Ok) {u64 : ℚ → ℕ}
    (hu : ∀ x, 0 ≤ x → x < 2 ^ 64 → u64 x = ⌊x⌋₊) (values : List ℚ) {n : ℚ} (hn : 0 ≤ n)
    (hb : ∀ v ∈ values, F.rnd (n * |v|) ≤ 2 ^ 64 → F.rnd (F.rnd (n * |v|) + 1 / 2) < 2 ^ 64)
    (moduli : List ℕ) {coeffs : List (List ℕ)} {M : ℕ} (hM : ∀ row ∈ coeffs, row.length = M)
    (h0 : 0 < coeffs.length) (hmod : moduli.length ≤ coeffs.length) (hval : values.length ≤ M) :
    ∃ out, scaleUpVecExact F u64 values n moduli coeffs = .ok out ∧ out.length = coeffs.length ∧
      (∀ row ∈ out, row.length = M) ∧
      (∀ j (hj : j < moduli.length) i (hi : i < values.length),
        at2 out j i = some (scaleUpExact F values[i] n moduli[j])) ∧
      (∀ j < moduli.length, ∀ i, values.length ≤ i → i < M → at2 out j i = some 0) ∧
      (∀ j i, moduli.length ≤ j → at2 out j i = at2 coeffs j i) := by
  obtain ⟨c1, e1, l1, m1, v1⟩ := forN_inv values.length (fun i coeffs => do
      let v ← idx values i
      forN moduli.length (fun j coeffs => do
        let q ← idx moduli j
        upd2 coeffs j i (scaleUpEntry F u64 v n q)) coeffs)
    (fun t c => c.length = coeffs.length ∧ (∀ row ∈ c, row.length = M) ∧ ∀ j i, at2 c j i =
      if i < t ∧ j < moduli.length then
        some (scaleUpExact F (values.getD i 0) n (moduli.getD j 0)) else at2 coeffs j i) coeffs
    ⟨rfl, hM, fun j i => by simp⟩ (by
      rintro t ht c ⟨a1, a2, a3⟩
      rw [idx_of_lt ht, Go.ok_bind]
      obtain ⟨c', b1, b2, b3, b4⟩ := forN_inv moduli.length (fun j coeffs => do
          let q ← idx moduli j
          upd2 coeffs j t (scaleUpEntry F u64 values[t] n q))
        (fun u c' => c'.length = coeffs.length ∧ (∀ row ∈ c', row.length = M) ∧ ∀ j i, at2 c' j i =
          if i = t ∧ j < u then some (scaleUpExact F (values.getD i 0) n (moduli.getD j 0))
          else at2 c j i) c ⟨a1, a2, fun j i => by simp⟩ (by
          rintro u hu' c' ⟨d1, d2, d3⟩
          rw [idx_of_lt hu', Go.ok_bind]
          obtain ⟨c'', f1, f2, f3, f4⟩ := upd2_spec d2 (j := u) (i := t) (by omega) (by omega)
            (scaleUpEntry F u64 values[t] n moduli[u])
          refine ⟨c'', f1, f2.trans d1, f3, fun j i => ?_⟩
          rw [f4]
          by_cases h : j = u ∧ i = t
          · obtain ⟨rfl, rfl⟩ := h
            rw [if_pos ⟨rfl, rfl⟩, if_pos ⟨rfl, Nat.lt_succ_self _⟩,
              scaleUpEntry_eq hu hF hn _ (hb _ (List.getElem_mem ht)),
              List.getD_eq_getElem _ _ ht, List.getD_eq_getElem _ _ hu']
          · rw [if_neg h, d3]
            have : (i = t ∧ j < u) ↔ (i = t ∧ j < u + 1) := by omega
            simp only [this])
      refine ⟨c', b1, b2, b3, fun j i => ?_⟩
      rw [b4, a3]
      by_cases h : i = t ∧ j < moduli.length
      · rw [if_pos h, if_pos ⟨by omega, h.2⟩]
      · rw [if_neg h]
        have : (i < t ∧ j < moduli.length) ↔ (i < t + 1 ∧ j < moduli.length) := by omega
        simp only [this])
  have hc0 : 0 < c1.length := by omega
  have hlen0 : c1[0].length = M := m1 _ (List.getElem_mem hc0)
  have hgood : ∀ out : List (List ℕ), (∀ j i, at2 out j i =
      if values.length ≤ i ∧ i < M ∧ j < moduli.length then some 0 else at2 c1 j i) →
      (∀ j (hj : j < moduli.length) i (hi : i < values.length),
        at2 out j i = some (scaleUpExact F values[i] n moduli[j])) ∧
      (∀ j < moduli.length, ∀ i, values.length ≤ i → i < M → at2 out j i = some 0) ∧
      (∀ j i, moduli.length ≤ j → at2 out j i = at2 coeffs j i) := by
    intro out h
    refine ⟨fun j hj i hi => ?_, fun j hj i hi hi' => ?_, fun j i hj => ?_⟩
    · rw [h, if_neg (by omega), v1, if_pos ⟨hi, hj⟩, List.getD_eq_getElem _ _ hi,
        List.getD_eq_getElem _ _ hj]
    · rw [h, if_pos ⟨hi, hi', hj⟩]
    · rw [h, if_neg (by omega), v1, if_neg (by omega)]
  unfold scaleUpVecExact
  rw [e1, Go.ok_bind, idx_of_lt hc0, Go.ok_bind, hlen0]
  by_cases hlt : values.length < M
  · rw [if_pos hlt]
    obtain ⟨c2, e2, l2, m2, v2⟩ := forN_inv moduli.length (fun i coeffs =>
        forN (M - values.length) (fun j coeffs => upd2 coeffs i (values.length + j) 0) coeffs)
      (fun t c => c.length = coeffs.length ∧ (∀ row ∈ c, row.length = M) ∧ ∀ j i, at2 c j i =
        if values.length ≤ i ∧ i < M ∧ j < t then some 0 else at2 c1 j i) c1
      ⟨l1, m1, fun j i => by simp⟩ (by
        rintro t ht c ⟨a1, a2, a3⟩
        obtain ⟨c', b1, b2, b3, b4⟩ := forN_inv (M - values.length)
          (fun j coeffs => upd2 coeffs t (values.length + j) 0)
          (fun u c' => c'.length = coeffs.length ∧ (∀ row ∈ c', row.length = M) ∧
            ∀ j i, at2 c' j i = if j = t ∧ values.length ≤ i ∧ i < values.length + u then some 0
              else at2 c j i) c ⟨a1, a2, fun j i => by rw [if_neg (by omega)]⟩ (by
            rintro u hu' c' ⟨d1, d2, d3⟩
            obtain ⟨c'', f1, f2, f3, f4⟩ := upd2_spec d2 (j := t) (i := values.length + u) (by omega)
              (by omega) 0
            refine ⟨c'', f1, f2.trans d1, f3, fun j i => ?_⟩
            rw [f4]
            by_cases h : j = t ∧ i = values.length + u
            · rw [if_pos h, if_pos (by omega)]
            · rw [if_neg h, d3]
              have : (j = t ∧ values.length ≤ i ∧ i < values.length + u) ↔
                (j = t ∧ values.length ≤ i ∧ i < values.length + (u + 1)) := by omega
              simp only [this])
        refine ⟨c', b1, b2, b3, fun j i => ?_⟩
        rw [b4, a3]
        by_cases h : j = t ∧ values.length ≤ i ∧ i < values.length + (M - values.length)
        · rw [if_pos h, if_pos (by omega)]
        · rw [if_neg h]
          have : (values.length ≤ i ∧ i < M ∧ j < t) ↔ (values.length ≤ i ∧ i < M ∧ j < t + 1) := by
            omega
          simp only [this])
    exact ⟨c2, e2, l2, m2, hgood c2 v2⟩
  · rw [if_neg hlt]
    exact ⟨c1, rfl, l1, m1, hgood c1 fun j i => by rw [if_neg (by omega)]⟩

/-! ## C46 -/

section ReadData

variable {K : Type _} [Zero K]

/-- The table fits and every cell is a number. -/
def Fits (parse : String → Option K) (numData numFeature : ℕ) (rows : List (List String)) : Prop :=
  rows.length ≤ numData + 1 ∧
    ∀ row ∈ rows.drop 1, row.length ≤ numFeature + 1 ∧ ∀ cell ∈ row, (parse cell).isSome

/-- The number in cell `j` of a row. -/
def num (parse : String → Option K) (row : List String) (j : ℕ) : K :=
  ((row[j]?).bind parse).getD 0

theorem row_loop {parse : String → Option K} {numFeature : ℕ} {row : List String} {i : ℕ}
    {t : Table K} (hf : t.feature[i]? = some (List.replicate numFeature 0)) (hl : i < t.label.length)
    (hrow : row.length ≤ numFeature + 1) (hp : ∀ cell ∈ row, (parse cell).isSome) :
    ∃ t', forN row.length (readCol parse row i) t = .ok t' ∧
      t'.feature = t.feature.set i ((List.range numFeature).map fun j =>
        if j + 1 < row.length then num parse row j else 0) ∧
      t'.label = if row = [] then t.label else t.label.set i (num parse row (row.length - 1)) := by
  have hif : i < t.feature.length := (List.getElem?_eq_some_iff.mp hf).1
  obtain ⟨t', h1, h2, h3⟩ := forN_inv row.length (readCol parse row i)
    (fun c t' => t'.feature = t.feature.set i ((List.range numFeature).map fun j =>
        if j + 1 < row.length ∧ j < c then num parse row j else 0) ∧
      t'.label = if c = row.length ∧ row ≠ [] then t.label.set i (num parse row (row.length - 1))
        else t.label) t (by
      constructor
      · refine (List.set_getElem_self hif).symm.trans ?_
        congr 1
        rw [List.getElem?_eq_getElem hif] at hf
        rw [Option.some.inj hf]
        apply List.ext_getElem <;> simp
      · rw [if_neg]
        rintro ⟨h, h'⟩
        exact h' (List.length_eq_zero_iff.mp h.symm)) (by
      rintro c hc t' ⟨a1, a2⟩
      obtain ⟨x, hx⟩ := Option.isSome_iff_exists.mp (hp _ (List.getElem_mem hc))
      have hnum : num parse row c = x := by
        unfold num
        rw [List.getElem?_eq_getElem hc, Option.bind_some, hx]; rfl
      unfold readCol
      rw [idx_of_lt hc, Go.ok_bind]
      simp only [hx]
      by_cases hlast : c ≠ row.length - 1
      · rw [if_pos hlast, a1, idx_of_get? (List.getElem?_set_self hif), Go.ok_bind,
          upd_of_lt (by simp; omega), Go.ok_bind, upd_of_lt (by simpa using hif), Go.ok_bind]
        refine ⟨_, rfl, ?_, ?_⟩
        · show List.set (List.set _ _ _) _ _ = _
          rw [List.set_set]
          congr 1
          apply List.ext_getElem
          · simp
          · intro j h1 h2
            rw [List.getElem_set]
            simp only [List.getElem_map, List.getElem_range]
            split
            · next h => subst h; rw [if_pos ⟨by omega, by omega⟩, hnum]
            · next h =>
              have : (j + 1 < row.length ∧ j < c) ↔ (j + 1 < row.length ∧ j < c + 1) := by omega
              simp only [this]
        · show t'.label = _
          rw [a2, if_neg (by omega), if_neg (by omega)]
      · have hlast := not_not.mp hlast
        have hlen : t'.label = t.label := by rw [a2, if_neg (by omega)]
        rw [if_neg (not_not.mpr hlast), hlen, upd_of_lt hl, Go.ok_bind]
        refine ⟨_, rfl, ?_, ?_⟩
        · show t'.feature = _
          rw [a1]
          congr 2
          funext j
          have : (j + 1 < row.length ∧ j < c) ↔ (j + 1 < row.length ∧ j < c + 1) := by omega
          simp only [this]
        · show t.label.set i x = _
          rw [if_pos ⟨by omega, by rintro rfl; simp at hc⟩, ← hlast, hnum])
  refine ⟨t', h1, ?_, ?_⟩
  · rw [h2]
    congr 2
    funext j
    have : (j + 1 < row.length ∧ j < row.length) ↔ j + 1 < row.length := by omega
    simp only [this]
  · rw [h3]
    by_cases h : row = [] <;> simp [h]

/-- Record `i` holds data row `i + 1`: its columns but the last are the features in order (missing
ones are 0), its last column is the label.  Records without a row have no features and label 0. -/
theorem C46_readData {parse : String → Option K} {numData numFeature : ℕ}
    {rows : List (List String)} (h : Fits parse numData numFeature rows) :
    ∃ t, readData parse numData numFeature rows = .ok t ∧
      t.feature.length = numData ∧ t.label.length = numData ∧
      (∀ i (hi : i + 1 < rows.length),
        (∃ fr, t.feature[i]? = some fr ∧ fr.length = numFeature ∧
          ∀ j < numFeature, fr[j]? = some (if j + 1 < rows[i + 1].length then num parse rows[i + 1] j
            else 0)) ∧
        t.label[i]? = some (num parse rows[i + 1] (rows[i + 1].length - 1))) ∧
      ∀ i < numData, rows.length ≤ i + 1 → t.feature[i]? = some [] ∧ t.label[i]? = some 0 := by
  obtain ⟨hn, hr⟩ := h
  unfold readData
  obtain ⟨t, h1, h2, h3, h4, h5⟩ := forN_inv rows.length (fun i t => do
      let row ← idx rows i
      if i = 0 then return t
      else do
        let f ← upd t.feature (i - 1) (List.replicate numFeature 0)
        forN row.length (readCol parse row (i - 1)) { t with feature := f })
    (fun c t => t.feature.length = numData ∧ t.label.length = numData ∧
      (∀ i (hi : i + 1 < rows.length), i + 1 < c →
        t.feature[i]? = some ((List.range numFeature).map fun j =>
          if j + 1 < rows[i + 1].length then num parse rows[i + 1] j else 0) ∧
        t.label[i]? = some (num parse rows[i + 1] (rows[i + 1].length - 1))) ∧
      ∀ i < numData, c ≤ i + 1 → t.feature[i]? = some [] ∧ t.label[i]? = some 0)
    (⟨List.replicate numData [], List.replicate numData 0⟩ : Table K)
    ⟨by simp, by simp, fun i hi h => by omega, fun i hi _ => by simp [hi]⟩ (by
      rintro c hc t ⟨a1, a2, a3, a4⟩
      rw [idx_of_lt hc, Go.ok_bind]
      by_cases h0 : c = 0
      · rw [if_pos h0]
        exact ⟨t, rfl, a1, a2, fun i hi h => by omega, fun i hi _ => a4 i hi (by omega)⟩
      · rw [if_neg h0, upd_of_lt (by omega), Go.ok_bind]
        have hmem : rows[c] ∈ rows.drop 1 := by
          rw [List.mem_drop_iff_getElem]
          exact ⟨c - 1, by omega, by congr 1; omega⟩
        obtain ⟨b1, b2⟩ := hr _ hmem
        obtain ⟨t', e1, e2, e3⟩ := row_loop (parse := parse) (numFeature := numFeature)
          (row := rows[c]) (i := c - 1)
          (t := { t with feature := t.feature.set (c - 1) (List.replicate numFeature 0) })
          (List.getElem?_set_self (by omega)) (by show c - 1 < t.label.length; omega) b1 b2
        have e2 : t'.feature = (t.feature.set (c - 1) _).set (c - 1) _ := e2
        have e3 : t'.label = if rows[c] = [] then t.label else t.label.set (c - 1) _ := e3
        rw [List.set_set] at e2
        refine ⟨t', e1, by rw [e2]; simpa using a1, ?_, fun i hi hic => ?_, fun i hi hic => ?_⟩
        · rw [e3]; split <;> simp [a2]
        · by_cases hic' : i + 1 = c
          · subst hic'
            constructor
            · rw [e2, Nat.add_sub_cancel, List.getElem?_set_self (by omega)]
            · rw [e3]
              split
              · next h =>
                rw [(a4 i (by omega) (by omega)).2]
                simp [h, num]
              · rw [Nat.add_sub_cancel, List.getElem?_set_self (by omega)]
          · have g := a3 i hi (by omega)
            constructor
            · rw [e2, List.getElem?_set_ne (by omega)]; exact g.1
            · rw [e3]
              split
              · exact g.2
              · rw [List.getElem?_set_ne (by omega)]; exact g.2
        · have g := a4 i hi (by omega)
          constructor
          · rw [e2, List.getElem?_set_ne (by omega)]; exact g.1
          · rw [e3]
            split
            · exact g.2
            · rw [List.getElem?_set_ne (by omega)]; exact g.2)
  refine ⟨t, h1, h2, h3, fun i hi => ?_, fun i hi h => h5 i hi h⟩
  obtain ⟨g1, g2⟩ := h4 i hi hi
  exact ⟨⟨_, g1, by simp, fun j hj => by simp [hj]⟩, g2⟩

theorem forN_ok {σ : Type _} {n : ℕ} {body : ℕ → σ → Go σ} {Inv : σ → Prop} {P : ℕ → Prop} {s s' : σ}
    (h0 : Inv s) (step : ∀ k < n, ∀ s s', Inv s → body k s = .ok s' → Inv s' ∧ P k)
    (h : forN n body s = .ok s') : Inv s' ∧ ∀ k < n, P k := by
  induction n generalizing s' with
  | zero =>
    obtain rfl := Except.ok.inj h
    exact ⟨h0, fun k hk => by omega⟩
  | succ n ih =>
    unfold forN at h
    cases hb : forN n body s with
    | error e => rw [hb] at h; cases h
    | ok s1 =>
      rw [hb] at h
      obtain ⟨i1, p1⟩ := ih (fun k hk => step k (by omega)) hb
      obtain ⟨i2, p2⟩ := step n (by omega) s1 s' i1 h
      refine ⟨i2, fun k hk => ?_⟩
      rcases Nat.lt_succ_iff_lt_or_eq.mp hk with h | rfl
      · exact p1 k h
      · exact p2

theorem upd_ok {α : Type _} {l l' : List α} {i : ℕ} {a : α} (h : upd l i a = .ok l') :
    i < l.length ∧ l' = l.set i a := by
  unfold upd at h
  split at h
  · next hi => exact ⟨hi, (Except.ok.inj h).symm⟩
  · cases h

/-- `readData` panics exactly if there are more than `numData` data rows, a row with more than
`numFeature + 1` columns, or a cell that is not a number. -/
theorem C46_panics_iff (parse : String → Option K) (numData numFeature : ℕ)
    (rows : List (List String)) :
    (readData parse numData numFeature rows).panics ↔ ¬ Fits parse numData numFeature rows := by
  constructor
  · rintro ⟨p, hp⟩ h
    obtain ⟨t, ht, -⟩ := C46_readData h
    rw [hp] at ht; cases ht
  · intro hnot
    cases hres : readData parse numData numFeature rows with
    | error e => exact ⟨e, rfl⟩
    | ok t =>
      refine absurd ?_ hnot
      unfold readData at hres
      obtain ⟨-, h⟩ := forN_ok (Inv := fun t : Table K => t.feature.length = numData)
        (P := fun c => c = 0 ∨ (c - 1 < numData ∧ ∀ hc : c < rows.length,
          rows[c].length ≤ numFeature + 1 ∧ ∀ cell ∈ rows[c], (parse cell).isSome)) (by simp) (by
          intro c hc t t' hI hb
          rw [idx_of_lt hc, Go.ok_bind] at hb
          by_cases h0 : c = 0
          · rw [if_pos h0] at hb
            obtain rfl := Except.ok.inj hb
            exact ⟨hI, Or.inl h0⟩
          · rw [if_neg h0] at hb
            cases hu : upd t.feature (c - 1) (List.replicate numFeature (0 : K)) with
            | error e => rw [hu] at hb; cases hb
            | ok f =>
              rw [hu, Go.ok_bind] at hb
              obtain ⟨u1, rfl⟩ := upd_ok hu
              obtain ⟨⟨i1, i2⟩, h⟩ := forN_ok (Inv := fun t : Table K => t.feature.length = numData ∧
                  ∃ fr, t.feature[c - 1]? = some fr ∧ fr.length = numFeature)
                (P := fun j => (∀ hj : j < rows[c].length, (parse rows[c][j]).isSome) ∧
                  (j ≠ rows[c].length - 1 → j < numFeature))
                ⟨by simpa using hI, _, List.getElem?_set_self u1, by simp⟩ (by
                  rintro j hj s s' ⟨k1, fr, k2, k3⟩ hb'
                  unfold readCol at hb'
                  rw [idx_of_lt hj, Go.ok_bind] at hb'
                  cases hx : parse rows[c][j] with
                  | none => rw [hx] at hb'; cases hb'
                  | some x =>
                    simp only [hx] at hb'
                    by_cases hl : j ≠ rows[c].length - 1
                    · rw [if_pos hl, idx_of_get? k2, Go.ok_bind] at hb'
                      cases hu1 : upd fr j x with
                      | error e => rw [hu1] at hb'; cases hb'
                      | ok fr' =>
                        rw [hu1, Go.ok_bind] at hb'
                        obtain ⟨v1, rfl⟩ := upd_ok hu1
                        cases hu2 : upd s.feature (c - 1) (fr.set j x) with
                        | error e => rw [hu2] at hb'; cases hb'
                        | ok f' =>
                          rw [hu2, Go.ok_bind] at hb'
                          obtain ⟨w1, rfl⟩ := upd_ok hu2
                          obtain rfl := Except.ok.inj hb'
                          exact ⟨⟨by simpa using k1, _, List.getElem?_set_self w1, by simpa using k3⟩,
                            fun _ => by rw [hx]; rfl, fun _ => by omega⟩
                    · rw [if_neg hl] at hb'
                      cases hu1 : upd s.label (c - 1) x with
                      | error e => rw [hu1] at hb'; cases hb'
                      | ok l' =>
                        rw [hu1, Go.ok_bind] at hb'
                        obtain rfl := Except.ok.inj hb'
                        exact ⟨⟨k1, fr, k2, k3⟩, fun _ => by rw [hx]; rfl, fun h => absurd h hl⟩) hb
              refine ⟨i1, Or.inr ⟨by omega, fun _ => ⟨?_, fun cell hcell => ?_⟩⟩⟩
              · by_contra hlong
                have := (h numFeature (by omega)).2 (by omega)
                omega
              · obtain ⟨j, hj, rfl⟩ := List.getElem_of_mem hcell
                exact (h j hj).1 hj) hres
      refine ⟨?_, fun row hrow => ?_⟩
      · by_contra hlong
        rcases h (numData + 1) (by omega) with h | h <;> omega
      · rw [List.mem_drop_iff_getElem] at hrow
        obtain ⟨j, hj, rfl⟩ := hrow
        rcases h (1 + j) (by omega) with h | h
        · omega
        · exact h.2 (by omega)

end ReadData

/-! ## Concrete cases -/

example : bitRev 3 1 = 4 ∧ bitRev 3 6 = 3 ∧ bitRev 4 5 = 10 := by decide

/-- `N = 8` on a slice of ten. -/
example : ∃ out, SliceBitReverse [0, 1, 2, 3, 4, 5, 6, 7, 8, 9] (2 ^ 3) = .ok (some out) ∧
    out[1]? = some 4 ∧ out[6]? = some 3 ∧ out[9]? = some 9 := by
  obtain ⟨out, h1, -, h2, h3⟩ := C44_bit_reverse 3 [0, 1, 2, 3, 4, 5, 6, 7, 8, 9] (by decide)
  exact ⟨out, h1, by rw [h2 1 (by decide)]; decide, by rw [h2 6 (by decide)]; decide,
    by rw [h3 9 (by decide)]; decide⟩

example := C44_involutive 3 ["a", "b", "c", "d", "e", "f", "g", "h"] (by decide)

/-- `N = 6` does not terminate. -/
example : SliceBitReverse [0, 1, 2, 3, 4, 5] 6 = .ok none :=
  C44_not_power (by decide) (fun k h => by
    have h3 : k < 3 := by
      by_contra hk
      have := Nat.pow_le_pow_right (show 0 < 2 by norm_num) (not_lt.mp hk)
      omega
    interval_cases k <;> omega) _ (by decide)

/-- `int64(-34)` modulo 17 gives 17, `int64(20)` gives 20. -/
example : ∃ r, interfaceMod (.i64 (-34)) 17 = .ok r ∧ r = 17 := by
  obtain ⟨r, h1, -, -, h2, -⟩ := C45_interfaceMod_int64 (q := 17) (by norm_num) (by norm_num)
    (x := -34) (by norm_num) (by norm_num)
  exact ⟨r, h1, h2 (by norm_num) (by norm_num)⟩

example : ∃ r, interfaceMod (.i64 20) 17 = .ok r ∧ ¬ r < 17 := by
  obtain ⟨r, h1, -, h2, -⟩ := C45_interfaceMod_int64 (q := 17) (by norm_num) (by norm_num)
    (x := 20) (by norm_num) (by norm_num)
  exact ⟨r, h1, by rw [h2]; norm_num⟩

example : ∃ r, interfaceMod (.big (-5)) 17 = .ok r ∧ r < 17 ∧ (r : ℤ) ≡ -5 [ZMOD 17] :=
  C45_interfaceMod_big (by norm_num) (-5)

example := C45_scaleUpExact Fl.double_ok (-2.5) (n := 1024) (by norm_num) (q := 17) (by norm_num)

example : ∃ chain, genBigIntChain [17, 41, 73] = .ok chain ∧ chain.length = 3 ∧
    ∀ i < 3, chain[i]? = some ([17, 41, 73].take (i + 1)).prod :=
  (C45_genBigIntChain [17, 41, 73]).2 (by simp)

example : ∃ r, (GenSwitchkeysRescalingParams [17, 41] [113, 89])[1]? = some r ∧ r < 41 ∧
    r * (113 * 89) ≡ 2 ^ 64 [MOD 41] := by
  simpa using (C45_GenSwitchkeysRescalingParams [17, 41] [113, 89]).2 1 (by decide) (by norm_num)
    (by simp; decide)

example := C45_scaleUpVecExact Fl.exact_ok (u64 := fun x => ⌊x⌋₊) (fun _ _ _ => rfl)
  [3 / 2, -1 / 4] (n := 2 ^ 20) (by norm_num) (by
    intro v hv _
    simp only [List.mem_cons, List.not_mem_nil, or_false] at hv
    rcases hv with rfl | rfl <;> norm_num [Fl.exact, abs_of_pos, abs_of_neg]) [17, 41]
  (coeffs := [[0, 0, 5], [0, 0, 6], [7, 8, 9]]) (M := 3) (by simp) (by decide) (by decide) (by decide)

/-- A parser of a few numbers. -/
def exParse (s : String) : Option ℤ :=
  [("1", 1), ("2", 2), ("3", 3), ("4", 4), ("7", 7), ("8", 8)].lookup s

/-- A header and two rows of two features and a label, for up to four records of three features. -/
example : ∃ t, readData (K := ℤ) exParse 4 3
      [["a", "b", "y"], ["1", "2", "7"], ["3", "4", "8"]] = .ok t ∧ t.label[1]? = some 8 := by
  obtain ⟨t, h1, -, -, h2, -⟩ := C46_readData (K := ℤ) (parse := exParse) (numData := 4)
    (numFeature := 3) (rows := [["a", "b", "y"], ["1", "2", "7"], ["3", "4", "8"]]) (by
      unfold Fits; decide)
  exact ⟨t, h1, (h2 1 (by decide)).2.trans (by decide)⟩

/-- Too many rows. -/
example : (readData (K := ℤ) exParse 1 2
    [["a", "y"], ["1", "7"], ["3", "8"]]).panics :=
  (C46_panics_iff _ _ _ _).mpr fun h => by have := h.1; simp at this

end MK.Utils
