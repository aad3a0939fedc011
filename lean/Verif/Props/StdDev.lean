import Verif.StdDev
import Verif.Props.Helpers
import Verif.Props.FlNorm

/-!
# C60: `StandardDeviation` in float64
-/

noncomputable section

namespace MK.Utils

open Lr

local notation "u" => (1 / 2 ^ 53 : ℝ)

/-- A rounded sum. -/
theorem app_foldl {F : Fl} (hF : F.Ok) {j : ℕ} {f g b : ℝ → ℝ} (l : List ℝ) {k : ℕ} (hj : j ≤ k)
    {B a a' : ℝ} (h0 : App k B (a : ℂ) (a' : ℂ)) (h : ∀ c ∈ l, App j (b c) (f c : ℂ) (g c : ℂ)) :
    App (k + l.length) (B + (l.map b).sum) ((a + (l.map f).sum : ℝ) : ℂ)
      ((l.foldl (fun acc c => F.re (acc + g c)) a' : ℝ) : ℂ) := by
  induction l generalizing k B a a' with
  | nil => simpa using h0
  | cons c l ih =>
    have h1 := h0.add ((h c (by simp)).mono hj)
    have h2 : App k (B + b c) ((a + f c : ℝ) : ℂ) ((a' + g c : ℝ) : ℂ) := by push_cast; exact h1
    have h3 := ih (by omega) (h2.re hF) fun d hd => h d (by simp [hd])
    simp only [List.map_cons, List.sum_cons, List.length_cons, List.foldl_cons]
    rw [show k + (l.length + 1) = k + 1 + l.length by omega, ← add_assoc, ← add_assoc]
    exact h3

theorem re_rel {F : Fl} (hF : F.Ok) (x : ℝ) : |F.re x - x| ≤ u * |x| := by
  have := hF.cx (x : ℂ)
  rwa [Fl.cx_ofReal, ← Complex.ofReal_sub, Complex.norm_real, Complex.norm_real, Real.norm_eq_abs,
    Real.norm_eq_abs] at this

theorem sum_nonneg_map {f : ℝ → ℝ} (l : List ℝ) (h : ∀ c, 0 ≤ f c) : 0 ≤ (l.map f).sum := by
  refine List.sum_nonneg fun x hx => ?_
  obtain ⟨c, -, rfl⟩ := List.mem_map.mp hx
  exact h c

/-- Cauchy-Schwarz: the sum of absolute values and the sum of squares. -/
theorem sum_abs_sq (f : ℝ → ℝ) (l : List ℝ) :
    (l.map fun c => |f c|).sum ^ 2 ≤ l.length * (l.map fun c => f c ^ 2).sum := by
  induction l with
  | nil => simp
  | cons c l ih =>
    simp only [List.map_cons, List.sum_cons, List.length_cons]
    have h1 : 0 ≤ (l.map fun c => |f c|).sum := sum_nonneg_map l fun _ => abs_nonneg _
    have h2 : 0 ≤ (l.map fun c => f c ^ 2).sum := sum_nonneg_map l fun _ => sq_nonneg _
    generalize (l.map fun c => |f c|).sum = A at ih h1 ⊢
    generalize (l.map fun c => f c ^ 2).sum = S at ih h2 ⊢
    have h3 : |f c| ^ 2 = f c ^ 2 := sq_abs _
    have h4 : (0 : ℝ) ≤ l.length := Nat.cast_nonneg _
    push_cast
    generalize (l.length : ℝ) = n at ih h4 ⊢
    rw [← h3]
    have h5 : 0 ≤ |f c| := abs_nonneg _
    generalize |f c| = x at h5 ⊢
    have h6 : 2 * x * A ≤ n * x ^ 2 + S := by
      rcases h4.eq_or_lt with h | h
      · have : A = 0 := by rw [← h] at ih; nlinarith
        rw [this]; nlinarith
      · have h8 : n * (2 * x * A) ≤ n * (n * x ^ 2 + S) := by nlinarith [sq_nonneg (n * x - A)]
        exact le_of_mul_le_mul_left h8 h
    nlinarith

/-- Quadratic means of close numbers are close. -/
theorem rms_near {f g : ℝ → ℝ} {l : List ℝ} (hl : l ≠ []) {τ : ℝ} (h : ∀ c ∈ l, |g c - f c| ≤ τ) :
    √((l.map fun c => g c ^ 2).sum / l.length) ≤ √((l.map fun c => f c ^ 2).sum / l.length) + τ := by
  have hn : (0 : ℝ) < l.length := by exact_mod_cast List.length_pos_iff.mpr hl
  have hτ : 0 ≤ τ := by
    obtain ⟨c, hc⟩ := List.exists_mem_of_ne_nil l hl
    exact (abs_nonneg _).trans (h c hc)
  have hF : 0 ≤ (l.map fun c => f c ^ 2).sum := sum_nonneg_map l fun _ => sq_nonneg _
  have h1 : (l.map fun c => g c ^ 2).sum ≤
      (l.map fun c => f c ^ 2).sum + 2 * τ * (l.map fun c => |f c|).sum + l.length * τ ^ 2 := by
    clear hl hn hF
    induction l with
    | nil => simp
    | cons c l ih =>
      have h2 := ih fun d hd => h d (by simp [hd])
      have h3 := h c (by simp)
      simp only [List.map_cons, List.sum_cons, List.length_cons]
      push_cast
      have h4 : g c ^ 2 ≤ f c ^ 2 + 2 * τ * |f c| + τ ^ 2 := by
        have h5 : |g c| ≤ |f c| + τ := by
          have := abs_sub_abs_le_abs_sub (g c) (f c); linarith
        have h6 := mul_self_le_mul_self (abs_nonneg _) h5
        have h7 := sq_abs (g c)
        have h8 := sq_abs (f c)
        nlinarith
      linarith
  have h2 := sum_abs_sq f l
  have hA : 0 ≤ (l.map fun c => |f c|).sum := sum_nonneg_map l fun _ => abs_nonneg _
  generalize (l.map fun c => |f c|).sum = A at h1 h2 hA
  generalize (l.map fun c => f c ^ 2).sum = S at h1 h2 hF ⊢
  generalize (l.map fun c => g c ^ 2).sum = S' at h1 ⊢
  obtain ⟨s, hs⟩ : ∃ s, s = √(S / l.length) := ⟨_, rfl⟩
  have hs0 : 0 ≤ s := by rw [hs]; exact Real.sqrt_nonneg _
  have hs2 : s ^ 2 * l.length = S := by
    rw [hs, Real.sq_sqrt (div_nonneg hF hn.le), div_mul_cancel₀ _ hn.ne']
  rw [← hs]
  generalize (l.length : ℝ) = n at *
  refine Real.sqrt_le_iff.mpr ⟨by linarith, ?_⟩
  rw [div_le_iff₀ hn]
  have hAn : A ≤ n * s := by
    refine abs_le_of_sq_le_sq' ?_ (by positivity) |>.2
    rw [← hs2] at h2
    rw [mul_pow]
    linarith
  have : 2 * τ * A ≤ 2 * τ * (n * s) := mul_le_mul_of_nonneg_left hAn (by linarith)
  nlinarith

theorem sqrt_near0 {sq : ℝ → ℝ} (hsq : SqrtOk sq) {s v ρ : ℝ} (hs : 0 ≤ s) (hρ : ρ ≤ 1)
    (hv : |v - s ^ 2| ≤ ρ * s ^ 2) : |sq v - s| ≤ (ρ + 2 * u) * s := by
  rcases hs.eq_or_lt with rfl | hs
  · have : v = 0 := by simpa using hv
    have h := hsq 0 le_rfl
    rw [this]
    simpa using h
  · exact sqrt_near hsq hs hρ hv

/-- **C60 (StandardDeviation in float64).** For entries up to `B` the computed number is within
`(n+3) B |scale| / 2^50` of the exact standard deviation times the scale, for any rounding and square root
with relative error `2^-53`. -/
theorem C60_StandardDeviation_float {F : Fl} (hF : F.Ok) {sq : ℝ → ℝ} (hsq : SqrtOk sq) {vec : List ℝ}
    (hne : vec ≠ []) {B : ℝ} (hB : ∀ c ∈ vec, |c| ≤ B) (hlen : vec.length + 3 ≤ 2 ^ 50) (scale : ℝ) :
    ∃ s s', StandardDeviation vec scale = some s ∧ stdDevF F sq vec scale = some s' ∧
      |s' - s| ≤ (vec.length + 3) * B * |scale| / 2 ^ 50 := by
  have hn : (0 : ℝ) < vec.length := by exact_mod_cast List.length_pos_iff.mpr hne
  have hn1 : (1 : ℝ) ≤ vec.length := by exact_mod_cast List.length_pos_iff.mpr hne
  have hB0 : 0 ≤ B := by
    obtain ⟨c, hc⟩ := List.exists_mem_of_ne_nil vec hne
    exact (abs_nonneg _).trans (hB c hc)
  have hnu : ((vec.length : ℝ) + 3) * u ≤ 1 / 8 := by
    have : ((vec.length : ℝ) + 3) ≤ 2 ^ 50 := by exact_mod_cast hlen
    have := mul_le_mul_of_nonneg_right this (show (0 : ℝ) ≤ u by norm_num)
    norm_num at this ⊢
    linarith
  -- the mean
  obtain ⟨m, hm⟩ : ∃ m, m = vec.sum / vec.length := ⟨_, rfl⟩
  obtain ⟨m', hm'⟩ : ∃ m', m' = F.re (vec.foldl (fun mean c => F.re (mean + c)) 0 / vec.length) :=
    ⟨_, rfl⟩
  have am : App (vec.length + 1) B (m : ℂ) (m' : ℂ) := by
    have h1 := app_foldl hF (f := id) (g := id) (b := fun _ => B) (j := 0) vec (k := 0) le_rfl
      (B := 0) (a := 0) (a' := 0) (by simp [App]) (fun c hc => by
        have h1 := App.refl (c : ℂ)
        rw [Complex.norm_real, Real.norm_eq_abs] at h1
        exact h1.widen (hB c hc))
    have h2 := h1.divNat vec.length
    rw [show (0 + (vec.map fun _ => B).sum) / (vec.length : ℝ) = B by
      rw [List.map_const', List.sum_replicate, nsmul_eq_mul, zero_add, mul_div_cancel_left₀ _ hn.ne']] at h2
    rw [hm', ← zero_add vec.length, hm]
    refine App.re hF ?_
    simp only [List.map_id, zero_add, id] at h2 ⊢
    push_cast at h2 ⊢
    exact h2
  have hmm : |m' - m| ≤ 2 * (vec.length + 1) * u * B := by
    have := am.lin (by omega)
    push_cast at this
    exact this
  have hmB : |m| ≤ B := by
    have := am.1
    rwa [Complex.norm_real, Real.norm_eq_abs] at this
  have hm'B : |m'| ≤ 2 * B := by
    have h1 := abs_sub_abs_le_abs_sub m' m
    have h2 : 2 * (vec.length + 1) * u * B ≤ 1 * B :=
      mul_le_mul_of_nonneg_right (by linarith) hB0
    linarith
  -- the deviations
  have hdev : ∀ c ∈ vec, |F.re (c - m') - (c - m)| ≤ (2 * vec.length + 5) * u * B := by
    intro c hc
    have h1 := re_rel hF (c - m')
    have h2 : |c - m'| ≤ 3 * B := by
      have := abs_sub c m'
      linarith [hB c hc]
    have h3 := abs_sub_le (F.re (c - m')) (c - m') (c - m)
    have h4 : |c - m' - (c - m)| = |m' - m| := by
      rw [show c - m' - (c - m) = -(m' - m) by ring, abs_neg]
    have h5 : u * |c - m'| ≤ u * (3 * B) := mul_le_mul_of_nonneg_left h2 (by norm_num)
    rw [h4] at h3
    linarith
  obtain ⟨τ, hτ⟩ : ∃ τ, τ = (2 * vec.length + 5) * u * B := ⟨_, rfl⟩
  rw [← hτ] at hdev
  obtain ⟨s, hs⟩ : ∃ s, s = √((vec.map fun c => (c - m) ^ 2).sum / vec.length) := ⟨_, rfl⟩
  obtain ⟨t, ht⟩ : ∃ t, t = √((vec.map fun c => F.re (c - m') ^ 2).sum / vec.length) := ⟨_, rfl⟩
  have hts : t ≤ s + τ := by
    rw [hs, ht]
    exact rms_near hne hdev
  have hst : s ≤ t + τ := by
    rw [hs, ht]
    exact rms_near hne fun c hc => by rw [abs_sub_comm]; exact hdev c hc
  have hs0 : 0 ≤ s := by rw [hs]; exact Real.sqrt_nonneg _
  have ht0 : 0 ≤ t := by rw [ht]; exact Real.sqrt_nonneg _
  have hsB : s ≤ B := by
    rw [hs]
    refine Real.sqrt_le_iff.mpr ⟨hB0, ?_⟩
    rw [div_le_iff₀ hn]
    have h1 := sum_quadratic vec 1 (-2 * m) (m ^ 2)
    rw [show (fun c : ℝ => 1 * c ^ 2 + -2 * m * c + m ^ 2) = fun c => (c - m) ^ 2 by
      funext c; ring] at h1
    have h2 : (vec.map (· ^ 2)).sum ≤ B ^ 2 * vec.length := by
      have : ∀ l : List ℝ, (∀ c ∈ l, |c| ≤ B) → (l.map (· ^ 2)).sum ≤ B ^ 2 * l.length := by
        intro l hl
        induction l with
        | nil => simp
        | cons c l ih =>
          have h3 := ih fun d hd => hl d (by simp [hd])
          have h4 := hl c (by simp)
          simp only [List.map_cons, List.sum_cons, List.length_cons]
          push_cast
          have : c ^ 2 ≤ B ^ 2 := by
            rw [← sq_abs c]
            exact pow_le_pow_left₀ (abs_nonneg _) h4 2
          linarith
      exact this vec hB
    have h3 : vec.sum = m * vec.length := by rw [hm, div_mul_cancel₀ _ hn.ne']
    rw [h1, h3]
    nlinarith [sq_nonneg m]
  -- the sum of squares
  obtain ⟨v', hv'⟩ : ∃ v', v' = F.re (vec.foldl (fun err c => F.re (err + F.re (F.re (c - m') *
    F.re (c - m')))) 0 / vec.length) := ⟨_, rfl⟩
  have hvs : |v' - t ^ 2| ≤ 2 * (vec.length + 2) * u * t ^ 2 := by
    have h1 := app_foldl hF (f := fun c => F.re (c - m') ^ 2)
      (g := fun c => F.re (F.re (c - m') * F.re (c - m'))) (b := fun c => F.re (c - m') ^ 2) (j := 1) vec
      (k := 1) le_rfl (B := 0) (a := 0) (a' := 0) (by simp [App]) (fun c _ => by
        have h1 := App.refl ((F.re (c - m') ^ 2 : ℝ) : ℂ)
        rw [Complex.norm_real, Real.norm_eq_abs, abs_of_nonneg (sq_nonneg _)] at h1
        have h2 := h1.re hF
        rwa [pow_two (F.re (c - m'))] at h2 ⊢)
    have h2 := h1.divNat vec.length
    have ht2 : t ^ 2 = (vec.map fun c => F.re (c - m') ^ 2).sum / vec.length := by
      rw [ht, Real.sq_sqrt (div_nonneg (sum_nonneg_map vec fun _ => sq_nonneg _) hn.le)]
    rw [zero_add, ← ht2] at h2
    have h3 : App (1 + vec.length + 1) (t ^ 2) ((t ^ 2 : ℝ) : ℂ) (v' : ℂ) := by
      rw [hv']
      refine App.re hF ?_
      rw [ht2] at h2 ⊢
      push_cast at h2 ⊢
      exact h2
    have := h3.lin (by omega)
    refine this.trans (le_of_eq ?_)
    push_cast; ring
  have hroot := sqrt_near0 hsq ht0 (by linarith) hvs
  obtain ⟨y, hy⟩ : ∃ y, y = sq v' := ⟨_, rfl⟩
  rw [← hy] at hroot
  have hτB : τ ≤ B := by
    rw [hτ]
    have : (2 * (vec.length : ℝ) + 5) * u * B ≤ 1 * B := mul_le_mul_of_nonneg_right (by linarith) hB0
    linarith
  have ht2 : t ≤ 2 * B := by linarith
  have hyt : |y - t| ≤ (4 * vec.length + 12) * u * B := by
    refine hroot.trans ?_
    have : (2 * (vec.length + 2) * u + 2 * u) * t ≤ (2 * (vec.length + 2) * u + 2 * u) * (2 * B) :=
      mul_le_mul_of_nonneg_left ht2 (by positivity)
    refine this.trans (le_of_eq ?_)
    ring
  have hys : |y - s| ≤ (6 * vec.length + 17) * u * B := by
    have h1 := abs_sub_le y t s
    have h2 : |t - s| ≤ τ := abs_le.mpr ⟨by linarith, by linarith⟩
    rw [hτ] at h2
    linarith
  have hyB : |y| ≤ 2 * B := by
    have h1 := abs_sub_abs_le_abs_sub y s
    rw [abs_of_nonneg hs0] at h1
    have h2 : (6 * (vec.length : ℝ) + 17) * u * B ≤ 1 * B :=
      mul_le_mul_of_nonneg_right (by linarith) hB0
    linarith
  refine ⟨s * scale, F.re (y * scale), ?_, ?_, ?_⟩
  · unfold StandardDeviation
    dsimp only
    have hmean : vec.foldl (fun mean c => mean + c) (0 : ℝ) = vec.sum := by
      have := foldl_add_map id vec 0
      simpa using this
    rw [if_neg hn.ne', hmean, ← hm, foldl_add_map (fun c => (c - m) * (c - m)), zero_add, hs]
    simp only [pow_two]
  · unfold stdDevF
    dsimp only
    rw [if_neg hn.ne', ← hm', ← hv', ← hy]
  · have h1 := re_rel hF (y * scale)
    have h2 := abs_sub_le (F.re (y * scale)) (y * scale) (s * scale)
    rw [← sub_mul, abs_mul] at h2
    rw [abs_mul] at h1
    have h3 : |y - s| * |scale| ≤ (6 * vec.length + 17) * u * B * |scale| :=
      mul_le_mul_of_nonneg_right hys (abs_nonneg _)
    have h4 : u * (|y| * |scale|) ≤ u * (2 * B * |scale|) :=
      mul_le_mul_of_nonneg_left (mul_le_mul_of_nonneg_right hyB (abs_nonneg _)) (by norm_num)
    have h5 : 0 ≤ B * |scale| := by positivity
    have h6 : 0 ≤ vec.length * (B * |scale|) := by positivity
    rw [show (vec.length + 3) * B * |scale| / 2 ^ 50 = (8 * vec.length + 24) * u * (B * |scale|) by ring]
    have h7 : (6 * vec.length + 17) * u * B * |scale| + u * (2 * B * |scale|) =
        u * (6 * (vec.length * (B * |scale|)) + 19 * (B * |scale|)) := by ring
    have h8 : (8 * vec.length + 24) * u * (B * |scale|) =
        u * (8 * (vec.length * (B * |scale|)) + 24 * (B * |scale|)) := by ring
    rw [h8]
    refine (h2.trans (add_le_add h1 h3)).trans ?_
    refine (add_le_add_left h4 _).trans ?_
    rw [add_comm, h7]
    exact mul_le_mul_of_nonneg_left (by linarith) (by norm_num)

/-- C60: the computed standard deviation of `1, 3` is within `15 / 2^50` of `1`. -/
example : ∃ s, stdDevF Fl.double sqrt53 [1, 3] 1 = some s ∧ |s - 1| ≤ 15 / 2 ^ 50 := by
  obtain ⟨s, s', e, e', h⟩ := C60_StandardDeviation_float Fl.double_ok sqrt53_ok (vec := [1, 3])
    (by simp) (B := 3) (by norm_num) (by norm_num) 1
  obtain ⟨t, e2, h2, h0, -⟩ := (C60_StandardDeviation [1, 3] 1).2 (by simp)
  obtain rfl : s = t := Option.some.inj (e.symm.trans e2)
  have hs := h0 zero_le_one
  norm_num at h2
  obtain rfl : s = 1 := by rcases h2 with h2 | h2 <;> linarith
  refine ⟨s', e', h.trans ?_⟩
  norm_num

/-! ## Equal entries -/

theorem rnd53_eq {x : ℚ} {e k : ℤ} (h1 : 2 ^ (e + 52) ≤ x) (h2 : x < 2 ^ (e + 53))
    (h3 : (k : ℚ) - 1 / 2 ≤ x / 2 ^ e) (h4 : x / 2 ^ e < k + 1 / 2) : rnd53 x = k * 2 ^ e := by
  have hx : 0 < x := lt_of_lt_of_le (zpow_pos (by norm_num) _) h1
  have hlog : Int.log 2 |x| = e + 52 := by
    rw [abs_of_pos hx]
    refine le_antisymm ?_ ?_
    · have : Int.log 2 x < e + 53 := by
        rw [← Int.lt_zpow_iff_log_lt (by norm_num) hx]; exact_mod_cast h2
      omega
    · rw [← Int.zpow_le_iff_le_log (by norm_num) hx]; exact_mod_cast h1
  unfold rnd53 ulp
  rw [hlog, add_sub_cancel_right, abs_of_pos hx, sign_pos hx]
  have hr : round (x / 2 ^ e) = k := by
    rw [round_eq, Int.floor_eq_iff]
    constructor <;> linarith
  rw [hr]
  simp

/-- **C60 (StandardDeviation in float64, equal entries).** Three times the float64 number `0.1` (here without
its factor `2^-55`): the computed mean is not the common value, and the result is not zero, while the
exact standard deviation is (`C60_StandardDeviation_zero`). -/
theorem C60_StandardDeviation_equal {sq : ℝ → ℝ} (hsq : SqrtOk sq) {scale : ℝ} (hs : scale ≠ 0) :
    StandardDeviation [3602879701896397, 3602879701896397, 3602879701896397] scale = some 0 ∧
    ∃ s, stdDevF Fl.double sq [3602879701896397, 3602879701896397, 3602879701896397] scale = some s ∧
      s ≠ 0 := by
  have hre : ∀ {x y : ℚ}, rnd53 x = y → Fl.double.re (x : ℝ) = (y : ℝ) := fun {x y} h => by
    rw [Fl.re_rat]; exact congrArg _ h
  have e1 : Fl.double.re 3602879701896397 = 3602879701896397 := by
    have := hre (x := 3602879701896397) (y := (7205759403792794 : ℤ) * 2 ^ (-1 : ℤ))
      (rnd53_eq (by norm_num) (by norm_num) (by norm_num) (by norm_num))
    norm_num at this ⊢; exact this
  have e2 : Fl.double.re 7205759403792794 = 7205759403792794 := by
    have := hre (x := 7205759403792794) (y := (7205759403792794 : ℤ) * 2 ^ (0 : ℤ))
      (rnd53_eq (by norm_num) (by norm_num) (by norm_num) (by norm_num))
    norm_num at this ⊢; exact this
  have e3 : Fl.double.re 10808639105689191 = 10808639105689192 := by
    have := hre (x := 10808639105689191) (y := (5404319552844596 : ℤ) * 2 ^ (1 : ℤ))
      (rnd53_eq (by norm_num) (by norm_num) (by norm_num) (by norm_num))
    norm_num at this ⊢; exact this
  have e4 : Fl.double.re (10808639105689192 / 3) = 7205759403792795 / 2 := by
    have := hre (x := 10808639105689192 / 3) (y := (7205759403792795 : ℤ) * 2 ^ (-1 : ℤ))
      (rnd53_eq (by norm_num) (by norm_num) (by norm_num) (by norm_num))
    norm_num at this ⊢; exact this
  have e5 : Fl.double.re (-1 / 2) = -1 / 2 := by
    have h1 : rnd53 (1 / 2) = 1 / 2 := by
      have := rnd53_eq (x := 1 / 2) (e := -53) (k := 4503599627370496) (by norm_num) (by norm_num)
        (by norm_num) (by norm_num)
      rw [this]; norm_num
    have := hre (x := -(1 / 2)) (y := -(1 / 2)) ((Fl.double_ok.neg (1 / 2)).trans (congrArg _ h1))
    norm_num at this ⊢; exact this
  have e6 : Fl.double.re (1 / 4) = 1 / 4 := by
    have := hre (x := 1 / 4) (y := (4503599627370496 : ℤ) * 2 ^ (-54 : ℤ))
      (rnd53_eq (by norm_num) (by norm_num) (by norm_num) (by norm_num))
    norm_num at this ⊢; exact this
  have e7 : Fl.double.re (1 / 2) = 1 / 2 := by
    have := hre (x := 1 / 2) (y := (4503599627370496 : ℤ) * 2 ^ (-53 : ℤ))
      (rnd53_eq (by norm_num) (by norm_num) (by norm_num) (by norm_num))
    norm_num at this ⊢; exact this
  have e8 : Fl.double.re (3 / 4) = 3 / 4 := by
    have := hre (x := 3 / 4) (y := (6755399441055744 : ℤ) * 2 ^ (-53 : ℤ))
      (rnd53_eq (by norm_num) (by norm_num) (by norm_num) (by norm_num))
    norm_num at this ⊢; exact this
  refine ⟨(C60_StandardDeviation_zero (by simp) hs).mpr (by simp), ?_⟩
  refine ⟨Fl.double.re (sq (1 / 4) * scale), ?_, ?_⟩
  · unfold stdDevF
    dsimp only [List.foldl_cons, List.foldl_nil, List.length_cons, List.length_nil]
    rw [if_neg (by norm_num)]
    have a1 : (0 : ℝ) + 3602879701896397 = 3602879701896397 := by norm_num
    have a2 : (3602879701896397 : ℝ) + 3602879701896397 = 7205759403792794 := by norm_num
    have a3 : (7205759403792794 : ℝ) + 3602879701896397 = 10808639105689191 := by norm_num
    have a4 : (10808639105689192 : ℝ) / ((0 + 1 + 1 + 1 : ℕ) : ℝ) = 10808639105689192 / 3 := by norm_num
    have a5 : (3602879701896397 : ℝ) - 7205759403792795 / 2 = -1 / 2 := by norm_num
    have a6 : (-1 / 2 : ℝ) * (-1 / 2) = 1 / 4 := by norm_num
    have a7 : (0 : ℝ) + 1 / 4 = 1 / 4 := by norm_num
    have a8 : (1 / 4 : ℝ) + 1 / 4 = 1 / 2 := by norm_num
    have a9 : (1 / 2 : ℝ) + 1 / 4 = 3 / 4 := by norm_num
    have a10 : (3 / 4 : ℝ) / ((0 + 1 + 1 + 1 : ℕ) : ℝ) = 1 / 4 := by norm_num
    rw [a1, e1, a2, e2, a3, e3, a4, e4, a5, e5, a6, e6, a7, e6, a8, e7, a9, e8, a10, e6]
  · have h1 := hsq (1 / 4) (by norm_num)
    have h2 : √(1 / 4 : ℝ) = 1 / 2 := by
      rw [show (1 / 4 : ℝ) = (1 / 2) ^ 2 by norm_num, Real.sqrt_sq (by norm_num)]
    rw [h2] at h1
    have h3 : sq (1 / 4) ≠ 0 := by
      intro h
      rw [h] at h1
      norm_num [abs_of_pos] at h1
    intro h
    have h4 := re_rel Fl.double_ok (sq (1 / 4) * scale)
    rw [h, zero_sub, abs_neg] at h4
    have h5 : 0 < |sq (1 / 4) * scale| := abs_pos.mpr (mul_ne_zero h3 hs)
    linarith

/-- **C60**: the result is NaN exactly on the empty vector. -/
theorem C60_stdDev_nan (F : Fl) (sq : ℝ → ℝ) (vec : List ℝ) (scale : ℝ) :
    stdDevF F sq vec scale = none ↔ vec = [] := by
  unfold stdDevF
  by_cases h : vec = []
  · subst h
    simp
  · have : (vec.length : ℝ) ≠ 0 := by simpa using h
    simp [h]

example : stdDevF Fl.double sqrt53 [] 1 = none := (C60_stdDev_nan _ _ _ _).mpr rfl

end MK.Utils
