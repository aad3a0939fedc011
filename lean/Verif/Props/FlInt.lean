import Verif.FlInt
import Verif.Word
import Verif.KeyGen
import Verif.Props.ShippedToy
import Mathlib.Analysis.SpecialFunctions.Log.Base

/-!
# C64: the integers computed through float64
-/

noncomputable section

namespace MK

variable {F : Fl}

/-- **C64 (quotients).** For every numerator below `2^53` the ceiling of the rounded quotient is the
ceiling of the quotient. -/
theorem C64_ceilQuot (hF : F.Ok) {a b : ℕ} (ha : a < 2 ^ 53) (hb : 0 < b) (hb' : b ≤ 2 ^ 53) :
    F.ceilQuot a b = ⌈(a : ℚ) / b⌉ := by
  have hb0 : (0 : ℚ) < b := by exact_mod_cast hb
  have ha' : (a : ℚ) < 2 ^ 53 := by exact_mod_cast ha
  unfold Fl.ceilQuot
  rw [hF.nat ha.le, hF.nat hb']
  obtain ⟨m, r, hr, e⟩ : ∃ m r, r < b ∧ a = b * m + r :=
    ⟨a / b, a % b, Nat.mod_lt _ hb, (Nat.div_add_mod a b).symm⟩
  have eq : (a : ℚ) / b = m + r / b := by
    rw [e]; push_cast; field_simp
  rcases Nat.eq_zero_or_pos r with rfl | hr0
  · have : (a : ℚ) / b = (m : ℕ) := by rw [eq]; simp
    have hm : m ≤ 2 ^ 53 := by nlinarith
    rw [this, hF.nat hm]
  · have h1 : (1 : ℚ) / b ≤ r / b := by
      rw [div_le_div_iff_of_pos_right hb0]; exact_mod_cast hr0
    have h2 : (r : ℚ) / b ≤ 1 - 1 / b := by
      rw [le_sub_iff_add_le, ← add_div, div_le_one hb0]
      exact_mod_cast hr
    have h3 : |F.rnd ((a : ℚ) / b) - a / b| < 1 / b := by
      refine lt_of_le_of_lt (hF.rel _) ?_
      rw [abs_of_nonneg (by positivity), div_div, div_lt_div_iff₀ (by positivity) hb0]
      nlinarith
    have h4 := abs_lt.mp h3
    have c1 : ⌈(a : ℚ) / b⌉ = (m : ℤ) + 1 := by
      rw [Int.ceil_eq_iff]
      push_cast
      have : (0 : ℚ) < 1 / b := by positivity
      constructor <;> linarith
    have c2 : ⌈F.rnd ((a : ℚ) / b)⌉ = (m : ℤ) + 1 := by
      rw [Int.ceil_eq_iff]
      push_cast
      constructor <;> linarith [h4.1, h4.2]
    rw [c1, c2]

theorem ceil_div_nat {a b : ℕ} (hb : 0 < b) : ⌈(a : ℚ) / b⌉ = ((a + b - 1) / b : ℕ) := by
  have hb0 : (0 : ℚ) < b := by exact_mod_cast hb
  generalize ht : (a + b - 1) / b = t
  have h1 : t * b ≤ a + b - 1 := by rw [← ht]; exact Nat.div_mul_le_self _ _
  have h2 : a + b - 1 < b * (t + 1) := by rw [← ht]; exact Nat.lt_mul_div_succ _ hb
  rw [Int.ceil_eq_iff]
  push_cast
  rw [lt_div_iff₀ hb0, div_le_iff₀ hb0]
  have h3 : t * b < a + b := by omega
  have h4 : a ≤ t * b := by
    have : b * (t + 1) = t * b + b := by ring
    omega
  have h3' : (t : ℚ) * b < a + b := by exact_mod_cast h3
  have h4' : (a : ℚ) ≤ t * b := by exact_mod_cast h4
  constructor <;> linarith

theorem ceilQuot_nat (hF : F.Ok) {a b : ℕ} (ha : a < 2 ^ 53) (hb : 0 < b) (hb' : b ≤ 2 ^ 53) :
    F.ceilQuot a b = ((a + b - 1) / b : ℕ) := by
  rw [C64_ceilQuot hF ha hb hb']
  exact ceil_div_nat hb

/-- **C64 (`Beta`).** The float64 computation of `Beta` (mkrlwe/params.go 67-71) gives the number of
blocks of `alpha` moduli that cover `levelQ + 1` moduli. -/
theorem C64_beta (hF : F.Ok) (C : Ctx) {L : ℕ} (hL : L + 1 < 2 ^ 53) (ha : 0 < C.alpha)
    (ha' : C.alpha ≤ 2 ^ 53) : F.ceilQuot (L + 1) C.alpha = C.beta L := by
  rw [ceilQuot_nat hF hL ha ha', Ctx.beta, show L + 1 + C.alpha - 1 = L + C.alpha by omega]

/-- **C64 (`NewDecomposer`).** The same for mkrlwe/basis_extension.go 382-383. -/
theorem C64_ceilDiv (hF : F.Ok) {a b : ℕ} (ha : a < 2 ^ 53) (hb : 0 < b) (hb' : b ≤ 2 ^ 53) :
    F.ceilQuot a b = Word.ceilDiv a b := ceilQuot_nat hF ha hb hb'

/-! ## The batch shape -/

/-- What is used of `math.Log2` and `math.Pow`: powers of two are exact (Go's `Log2` treats them
separately), other logarithms of integers are accurate to `2^-40`. -/
structure FMath.Ok (T : FMath) : Prop where
  log2_pow : ∀ k : ℕ, k ≤ 53 → T.log2 (2 ^ k) = k
  log2_near : ∀ n : ℕ, 0 < n → n ≤ 2 ^ 53 → |(T.log2 n : ℝ) - Real.logb 2 n| ≤ 1 / 2 ^ 40
  pow2_nat : ∀ k : ℕ, k ≤ 53 → T.pow2 k = 2 ^ k

variable {T : FMath}

theorem log_ge {x y : ℝ} (hx : 0 < x) (h : x ≤ y) : (y - x) / y ≤ Real.logb 2 y - Real.logb 2 x := by
  have hy : 0 < y := by linarith
  have h1 := Real.one_sub_inv_le_log_of_pos (div_pos hy hx)
  have h2 : 1 - (y / x)⁻¹ = (y - x) / y := by field_simp
  rw [h2] at h1
  have h3 := Real.log_le_sub_one_of_pos (show (0 : ℝ) < 2 by norm_num)
  have h4 := Real.log_pos (show (1 : ℝ) < 2 by norm_num)
  rw [← Real.logb_div hy.ne' hx.ne', Real.logb, le_div_iff₀ h4]
  have h5 : 0 ≤ (y - x) / y := div_nonneg (by linarith) hy.le
  nlinarith

theorem logb_two_pow (k : ℕ) : Real.logb 2 ((2 : ℝ) ^ k) = k := by
  rw [Real.logb_pow, Real.logb_self_eq_one (by norm_num), mul_one]

/-- The ceiling of the computed logarithm is the exact one. -/
theorem ceil_log2 (hT : T.Ok) {f : ℕ} (hf : 0 < f) (hf' : f ≤ 2 ^ 39) :
    ⌈T.log2 f⌉ = (Nat.clog 2 f : ℕ) := by
  obtain ⟨l, hl⟩ : ∃ l, l = Nat.clog 2 f := ⟨_, rfl⟩
  have hl39 : l ≤ 39 := by rw [hl]; exact Nat.clog_le_of_le_pow hf'
  have hle : f ≤ 2 ^ l := by rw [hl]; exact Nat.le_pow_clog (by norm_num) f
  rw [← hl]
  rcases hle.eq_or_lt with h | h
  · rw [h]
    push_cast
    rw [hT.log2_pow l (by omega), Int.ceil_natCast]
  have hl0 : 0 < l := by
    rcases Nat.eq_zero_or_pos l with h0 | h0
    · rw [h0] at h; omega
    · exact h0
  have hlow : 2 ^ (l - 1) < f := Nat.pow_lt_of_lt_clog (by omega)
  have hpow : (2 : ℝ) ^ l = 2 * 2 ^ (l - 1) := by
    rw [← pow_succ', Nat.sub_add_cancel hl0]
  have hnear := abs_le.mp (hT.log2_near f hf (hf'.trans (by norm_num)))
  have hf0 : (0 : ℝ) < f := by exact_mod_cast hf
  have hp0 : (0 : ℝ) < 2 ^ l := by positivity
  have hr1 : (f : ℝ) + 1 ≤ 2 ^ l := by exact_mod_cast h
  have hr2 : (2 : ℝ) ^ (l - 1) + 1 ≤ f := by exact_mod_cast hlow
  have hsmall : 1 / (2 : ℝ) ^ 40 < 1 / 2 ^ l := by
    refine one_div_lt_one_div_of_lt hp0 (pow_lt_pow_right₀ (by norm_num) (by omega))
  have e1 := log_ge hf0 (by linarith : (f : ℝ) ≤ 2 ^ l)
  have e2 := log_ge (x := 2 ^ (l - 1)) (by positivity) (by linarith : (2 : ℝ) ^ (l - 1) ≤ f)
  rw [logb_two_pow] at e1 e2
  have d1 : 1 / (2 : ℝ) ^ l ≤ (2 ^ l - f) / 2 ^ l := by
    rw [div_le_div_iff_of_pos_right hp0]; linarith
  have d2 : 1 / (2 : ℝ) ^ l ≤ (f - 2 ^ (l - 1)) / f := by
    rw [div_le_div_iff₀ hp0 hf0]; nlinarith
  have hl1 : ((l - 1 : ℕ) : ℝ) = l - 1 := by
    rw [Nat.cast_sub hl0]; norm_num
  rw [hl1] at e2
  have k1 : (T.log2 f : ℝ) ≤ l := by linarith [hnear.2]
  have k2 : (l : ℝ) - 1 < T.log2 f := by linarith [hnear.1]
  rw [Int.ceil_eq_iff]
  push_cast
  exact ⟨by exact_mod_cast k2, by exact_mod_cast k1⟩

theorem truncQ_two_pow (k : ℕ) : truncQ (2 ^ k) = 2 ^ k := by
  rw [truncQ, if_pos (by positivity)]
  have : ((2 : ℚ) ^ k) = ((2 ^ k : ℤ) : ℚ) := by push_cast; rfl
  rw [this, Int.floor_intCast]

open Lr in
/-- **C64 (batch shape).** For every number of slots that is a power of two, every number of features
that fits, and every batch size below `2^53`, the quantities that the minibatch programs compute through
logarithms and powers in float64 are the integers of the formulas. -/
theorem C64_shape (hF : F.Ok) (hT : T.Ok) (s : Shape) {k : ℕ} (hk : s.numSlots = 2 ^ k) (hk' : k ≤ 39)
    (hf : 0 < s.numFeature) (hf' : s.numFeature ≤ s.numSlots) (hb : s.batchSize < 2 ^ 53) :
    s.flSlotsPerData T F = (s.slotsPerData : ℕ) ∧ s.flNumDataPerCt T F = (s.numDataPerCt : ℕ) ∧
      s.flRealnumDataPerCt T F = (s.realnumDataPerCt : ℕ) ∧
      s.flNumCtPerBatch T F = (s.numCtPerBatch : ℕ) := by
  have h39 : (2 : ℕ) ^ k ≤ 2 ^ 39 := Nat.pow_le_pow_right (by norm_num) hk'
  have hf39 : s.numFeature ≤ 2 ^ 39 := hf'.trans (hk.le.trans h39)
  have hlog : s.flLogSlots T F = (Nat.clog 2 s.numFeature : ℕ) := by
    rw [Shape.flLogSlots, hF.nat (hf39.trans (by norm_num)), ceil_log2 hT hf hf39]
  obtain ⟨l, hl⟩ : ∃ l, l = Nat.clog 2 s.numFeature := ⟨_, rfl⟩
  have hlk : l ≤ k := by rw [hl]; exact Nat.clog_le_of_le_pow (hf'.trans hk.le)
  rw [← hl] at hlog
  have hrl : F.rnd ((l : ℤ) : ℚ) = l := by
    rw [Int.cast_natCast]
    exact hF.nat (by omega)
  have e1 : s.slotsPerData = 2 ^ l := by rw [Shape.slotsPerData, hl]
  have e2 : s.numDataPerCt = 2 ^ (k - l) := by
    rw [Shape.numDataPerCt, e1, hk, Nat.pow_div hlk (by norm_num)]
  have f2 : s.flNumDataPerCt T F = ((2 ^ (k - l) : ℕ) : ℤ) := by
    rw [Shape.flNumDataPerCt, hlog, hrl, hk, hF.nat (h39.trans (by norm_num))]
    push_cast
    rw [hT.log2_pow k (by omega)]
    have : (k : ℚ) - l = ((k - l : ℕ) : ℚ) := by rw [Nat.cast_sub hlk]
    rw [this, hF.nat (by omega), hT.pow2_nat _ (by omega), truncQ_two_pow]
  refine ⟨?_, by rw [f2, e2], ?_, ?_⟩
  · rw [Shape.flSlotsPerData, hlog, hrl, hT.pow2_nat l (by omega), truncQ_two_pow, e1]
    push_cast; rfl
  · rw [Shape.flRealnumDataPerCt, f2, Shape.realnumDataPerCt, e2]
    split_ifs with h
    · rw [min_eq_right (by exact_mod_cast h.le)]
    · rw [min_eq_left (by exact_mod_cast not_lt.mp h)]
  · have : s.flNumCtPerBatch T F = F.ceilQuot s.batchSize (2 ^ (k - l)) := by
      rw [Shape.flNumCtPerBatch, f2, Fl.ceilQuot, Int.cast_natCast]
    rw [this, ceilQuot_nat hF hb (by positivity), Shape.numCtPerBatch, e2]
    exact (Nat.pow_le_pow_right (by norm_num) (by omega))

/-! ## Cases -/

/-- Logarithm and power cut to fractions of `2^-45`. -/
def stdMath : FMath where
  log2 x := ⌊Real.logb 2 x * 2 ^ 45⌋ / 2 ^ 45
  pow2 x := ⌊(2 : ℝ) ^ (x : ℝ) * 2 ^ 45⌋ / 2 ^ 45

theorem floor_cut (z : ℤ) : ((⌊(z : ℝ) * 2 ^ 45⌋ : ℤ) : ℚ) / 2 ^ 45 = z := by
  have : (z : ℝ) * 2 ^ 45 = ((z * 2 ^ 45 : ℤ) : ℝ) := by norm_num
  rw [this, Int.floor_intCast]
  norm_num

theorem stdMath_ok : stdMath.Ok where
  log2_pow k _ := by
    show ((⌊Real.logb 2 ((2 ^ k : ℚ) : ℝ) * 2 ^ 45⌋ : ℤ) : ℚ) / 2 ^ 45 = k
    push_cast
    rw [logb_two_pow]
    exact floor_cut k
  log2_near n _ _ := by
    show |(((⌊Real.logb 2 ((n : ℚ) : ℝ) * 2 ^ 45⌋ : ℤ) / 2 ^ 45 : ℚ) : ℝ) - Real.logb 2 n| ≤ _
    rw [Rat.cast_natCast]
    generalize Real.logb 2 n = y
    have h1 := Int.floor_le (y * 2 ^ 45)
    have h2 := Int.lt_floor_add_one (y * 2 ^ 45)
    push_cast
    generalize ((⌊y * 2 ^ 45⌋ : ℤ) : ℝ) = z at h1 h2 ⊢
    rw [abs_le]
    constructor <;> norm_num at h1 h2 ⊢ <;> linarith
  pow2_nat k _ := by
    show ((⌊(2 : ℝ) ^ (((k : ℚ)) : ℝ) * 2 ^ 45⌋ : ℤ) : ℚ) / 2 ^ 45 = 2 ^ k
    rw [Rat.cast_natCast, Real.rpow_natCast]
    have := floor_cut (2 ^ k)
    push_cast at this
    exact this

/-- lr_minibatch.go: 7 features in 8 slots, 2048 records per ciphertext. -/
example : Lr.mbCfg.shape.flSlotsPerData stdMath Fl.double = 8 ∧
    Lr.mbCfg.shape.flNumDataPerCt stdMath Fl.double = 2048 := by
  obtain ⟨h1, h2, -⟩ := C64_shape Fl.double_ok stdMath_ok Lr.mbCfg.shape (k := 14) rfl (by norm_num)
    (by show 0 < 7; norm_num) (by show 7 ≤ 2 ^ 14; norm_num)
    (by show Lr.mbCfg.hp.batchSize < 2 ^ 53; norm_num [Lr.mbCfg, Lr.mbHyper])
  rw [h1, h2]
  have e : Lr.mbCfg.shape.slotsPerData = 8 := by
    show 2 ^ Nat.clog 2 7 = 8
    decide +kernel
  rw [Lr.Shape.numDataPerCt, e]
  exact ⟨rfl, rfl⟩

/-- The keys at the shipped parameters have as many digits as `Beta` computes. -/
example : Fl.double.ceilQuot 21 pnCtx.alpha = pnCtx.beta 20 :=
  C64_beta Fl.double_ok pnCtx (L := 20) (by norm_num) (by show 0 < pnCtx.nP / pnCtx.gamma; decide +kernel)
    (by show pnCtx.nP / pnCtx.gamma ≤ 2 ^ 53; decide +kernel)

end MK
