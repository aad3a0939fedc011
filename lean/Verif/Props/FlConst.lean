import Verif.LrMain
import Mathlib.Tactic.NormNum
import Mathlib.Tactic.Linarith

/-!
# C62: the constants of the training programs as float64 computes them
-/

noncomputable section

namespace MK.Lr

/-- Half the distance of neighbouring float64 numbers, relative. -/
local notation "u" => (1 / 2 ^ 53 : ℝ)

theorem _root_.MK.Fl.cx_rat (F : Fl) (q : ℚ) : F.cx (q : ℂ) = (F.rnd q : ℂ) := by
  have h : ∃ q' : ℚ, (q : ℂ) = q' := ⟨q, rfl⟩
  rw [Fl.cx, dif_pos h]
  have : h.choose = q := by exact_mod_cast h.choose_spec.symm
  rw [this]

theorem _root_.MK.Fl.Ok.cx {F : Fl} (hF : F.Ok) (z : ℂ) : ‖F.cx z - z‖ ≤ u * ‖z‖ := by
  by_cases h : ∃ q : ℚ, z = q
  · obtain ⟨q, rfl⟩ := h
    rw [Fl.cx_rat]
    have e : ∀ q : ℚ, ‖(q : ℂ)‖ = ((|q| : ℚ) : ℝ) := by
      intro q
      have : (q : ℂ) = ((q : ℝ) : ℂ) := by push_cast; rfl
      rw [this, Complex.norm_real, Real.norm_eq_abs]
      push_cast; rfl
    have := hF.rel q
    rw [← Rat.cast_sub, e, e]
    have h2 : ((|F.rnd q - q| : ℚ) : ℝ) ≤ ((|q| / 2 ^ 53 : ℚ) : ℝ) := by exact_mod_cast this
    refine h2.trans (le_of_eq ?_)
    push_cast; ring
  · rw [Fl.cx, dif_neg h, sub_self, norm_zero]
    positivity

/-! ## Accumulated rounding errors -/

/-- `x'` approximates `x` with `k` roundings, relative to `b`, which bounds `x`. -/
def App (k : ℕ) (b : ℝ) (x x' : ℂ) : Prop := ‖x‖ ≤ b ∧ ‖x' - x‖ ≤ ((1 + u) ^ k - 1) * b

theorem one_le_pow_u (k : ℕ) : 1 ≤ (1 + u) ^ k := one_le_pow₀ (by norm_num)

theorem App.b0 {k : ℕ} {b : ℝ} {x x' : ℂ} (h : App k b x x') : 0 ≤ b := (norm_nonneg x).trans h.1

theorem App.refl (x : ℂ) : App 0 ‖x‖ x x := ⟨le_rfl, by simp⟩

theorem App.norm {k : ℕ} {b : ℝ} {x x' : ℂ} (h : App k b x x') : ‖x'‖ ≤ (1 + u) ^ k * b := by
  have h1 := norm_add_le (x' - x) x
  rw [sub_add_cancel] at h1
  linarith [h.1, h.2]

theorem App.mono {k j : ℕ} {b : ℝ} {x x' : ℂ} (h : App k b x x') (hj : k ≤ j) : App j b x x' :=
  ⟨h.1, h.2.trans (mul_le_mul_of_nonneg_right
    (sub_le_sub_right (pow_le_pow_right₀ (by norm_num) hj) _) h.b0)⟩

theorem App.rnd {F : Fl} (hF : F.Ok) {k : ℕ} {b : ℝ} {x x' : ℂ} (h : App k b x x') :
    App (k + 1) b x (F.cx x') := by
  refine ⟨h.1, ?_⟩
  have h1 := norm_add_le (F.cx x' - x') (x' - x)
  rw [sub_add_sub_cancel] at h1
  have h2 := hF.cx x'
  have h3 := mul_le_mul_of_nonneg_left h.norm (show (0 : ℝ) ≤ u by norm_num)
  have h4 := h.2
  rw [pow_succ]
  linarith

theorem App.neg {k : ℕ} {b : ℝ} {x x' : ℂ} (h : App k b x x') : App k b (-x) (-x') := by
  refine ⟨by rw [norm_neg]; exact h.1, ?_⟩
  rw [← neg_sub', norm_neg]; exact h.2

theorem App.sub {k : ℕ} {b c : ℝ} {x x' y y' : ℂ} (h : App k b x x') (g : App k c y y') :
    App k (b + c) (x - y) (x' - y') := by
  refine ⟨(norm_sub_le _ _).trans (add_le_add h.1 g.1), ?_⟩
  rw [sub_sub_sub_comm, mul_add]
  exact (norm_sub_le _ _).trans (add_le_add h.2 g.2)

theorem App.mul {j k : ℕ} {b c : ℝ} {x x' y y' : ℂ} (h : App j b x x') (g : App k c y y') :
    App (j + k) (b * c) (x * y) (x' * y') := by
  refine ⟨by rw [norm_mul]; exact mul_le_mul h.1 g.1 (norm_nonneg _) h.b0, ?_⟩
  have e : x' * y' - x * y = x' * (y' - y) + (x' - x) * y := by ring
  rw [e]
  refine (norm_add_le _ _).trans ?_
  rw [norm_mul, norm_mul]
  have hj := one_le_pow_u j
  have hk := one_le_pow_u k
  have h1 : ‖x'‖ * ‖y' - y‖ ≤ (1 + u) ^ j * b * (((1 + u) ^ k - 1) * c) :=
    mul_le_mul h.norm g.2 (norm_nonneg _) (mul_nonneg (by linarith) h.b0)
  have h2 : ‖x' - x‖ * ‖y‖ ≤ ((1 + u) ^ j - 1) * b * c :=
    mul_le_mul h.2 g.1 (norm_nonneg _) (mul_nonneg (by linarith) h.b0)
  rw [pow_add]
  linarith [h1, h2]

theorem App.divNat {k : ℕ} {b : ℝ} {x x' : ℂ} (h : App k b x x') (m : ℕ) :
    App k (b / m) (x / m) (x' / m) := by
  have := h.mul (App.refl ((m : ℂ)⁻¹))
  simpa [div_eq_mul_inv] using this

/-- The inverse of a rounded number. -/
theorem App.inv {F : Fl} (hF : F.Ok) (x : ℂ) : App 2 ‖x⁻¹‖ x⁻¹ (F.cx x)⁻¹ := by
  refine ⟨le_rfl, ?_⟩
  have h := hF.cx x
  rcases eq_or_ne x 0 with rfl | hx
  · have : F.cx 0 = 0 := by simpa using h
    simp [this]
  have hx0 : 0 < ‖x‖ := norm_pos_iff.mpr hx
  have hlow : (1 - u) * ‖x‖ ≤ ‖F.cx x‖ := by
    have h1 := norm_sub_norm_le x (F.cx x)
    rw [norm_sub_rev] at h1
    linarith
  have hpos : 0 < ‖F.cx x‖ := lt_of_lt_of_le (mul_pos (by norm_num) hx0) hlow
  have hne : F.cx x ≠ 0 := norm_pos_iff.mp hpos
  have e : (F.cx x)⁻¹ - x⁻¹ = (x - F.cx x) * (F.cx x)⁻¹ * x⁻¹ := by
    field_simp
  rw [e, norm_mul, norm_mul, norm_sub_rev, norm_inv (F.cx x)]
  refine mul_le_mul_of_nonneg_right ?_ (norm_nonneg _)
  rw [← div_eq_mul_inv, div_le_iff₀ hpos]
  have h2 : ((1 + u) ^ 2 - 1) * ((1 - u) * ‖x‖) ≤ ((1 + u) ^ 2 - 1) * ‖F.cx x‖ :=
    mul_le_mul_of_nonneg_left hlow (by norm_num)
  have h3 : u ≤ ((1 + u) ^ 2 - 1) * (1 - u) := by norm_num
  have h4 := mul_le_mul_of_nonneg_right h3 hx0.le
  linarith

/-- At most eight roundings cost one rounding more than their number. -/
theorem App.le {k : ℕ} {b : ℝ} {x x' : ℂ} (h : App k b x x') (hk : k ≤ 8) :
    ‖x' - x‖ ≤ (k + 1) / 2 ^ 53 * b := by
  refine h.2.trans (mul_le_mul_of_nonneg_right ?_ h.b0)
  interval_cases k <;> norm_num

/-! ## C62 -/

variable {F : Fl}

theorem app_base (hF : F.Ok) (x : ℂ) : App 1 ‖x‖ x (F.cx x) := (App.refl x).rnd hF

theorem app_a (hF : F.Ok) (p : Hyper ℂ) :
    App 2 (‖p.gamma‖ / p.batchSize) (-p.gamma / p.batchSize) (F.cx (-F.cx p.gamma / p.batchSize)) :=
  ((app_base hF p.gamma).neg.divNat _).rnd hF

theorem app_e (hF : F.Ok) (p : Hyper ℂ) (iter : ℕ) :
    App 2 (1 + ‖p.eta iter‖) (1 - p.eta iter) (F.cx (1 - F.cx (p.eta iter))) := by
  have := (((App.refl 1).mono zero_le_one).sub (app_base hF (p.eta iter))).rnd hF
  simpa using this

theorem app_ea (hF : F.Ok) (p : Hyper ℂ) (iter : ℕ) :
    App 5 ((1 + ‖p.eta iter‖) * ‖p.gamma‖ / p.batchSize)
      (-(1 - p.eta iter) * p.gamma / p.batchSize)
      (F.cx (F.cx (-F.cx (1 - F.cx (p.eta iter)) * F.cx p.gamma) / p.batchSize)) :=
  ((((app_e hF p iter).neg.mul (app_base hF p.gamma)).rnd hF).divNat _).rnd hF

theorem app_y (hF : F.Ok) (p : Hyper ℂ) {y : ℂ} (hy : y.im = 0) :
    App 2 (‖p.c0‖ + ‖y‖) (p.c0 - y) (F.cx (F.cx p.c0 - (y.re : ℂ))) := by
  have e : (y.re : ℂ) = y := Complex.ext rfl (by simp [hy])
  rw [e]
  exact ((app_base hF p.c0).sub ((App.refl y).mono zero_le_one)).rnd hF

/-- The constants computed in float64, from hyperparameters rounded to float64, differ from their
formulas by a few units in the last place: every entry, for any rounding with relative error `2^-53`,
hyperparameters and real labels. -/
theorem C62_consts (hF : F.Ok) (p : Hyper ℂ) (n iter i : ℕ) (label : List ℂ)
    (hy : ∀ y ∈ label, y.im = 0) (hi : i < n) (hl : label.length = n) :
    ‖(fconst1 F p label).getD i 0 - -p.gamma / p.batchSize * (p.c0 - label.getD i 0)‖ ≤
      6 / 2 ^ 53 * (‖p.gamma‖ / p.batchSize * (‖p.c0‖ + ‖label.getD i 0‖)) ∧
    ‖(fconst2 F p label iter).getD i 0 -
        -(1 - p.eta iter) * p.gamma / p.batchSize * (p.c0 - label.getD i 0)‖ ≤
      9 / 2 ^ 53 * ((1 + ‖p.eta iter‖) * ‖p.gamma‖ / p.batchSize * (‖p.c0‖ + ‖label.getD i 0‖)) ∧
    ‖(fconst3 F p n).getD i 0 - -p.gamma / p.batchSize * p.c3‖ ≤
      5 / 2 ^ 53 * ‖p.gamma / p.batchSize * p.c3‖ ∧
    ‖(fconst4 F p n iter).getD i 0 - -(1 - p.eta iter) * p.gamma / p.batchSize * p.c3‖ ≤
      8 / 2 ^ 53 * ((1 + ‖p.eta iter‖) * ‖p.gamma / p.batchSize * p.c3‖) ∧
    ‖(fconst5 F p n).getD i 0 - p.c1 / p.c3‖ ≤ 5 / 2 ^ 53 * ‖p.c1 / p.c3‖ ∧
    ‖(fconst6 F p n iter).getD i 0 - (1 - p.eta iter)‖ ≤ 3 / 2 ^ 53 * (1 + ‖p.eta iter‖) ∧
    ‖(fconst7 F p n iter).getD i 0 - p.eta iter‖ ≤ 1 / 2 ^ 53 * ‖p.eta iter‖ ∧
    ‖(fconst8 F p n).getD i 0 - p.c3‖ ≤ 1 / 2 ^ 53 * ‖p.c3‖ ∧
    ‖(fconst9 F p n).getD i 0 - p.c0‖ ≤ 1 / 2 ^ 53 * ‖p.c0‖ := by
  have hrep : ∀ c : ℂ, (List.replicate n c).getD i 0 = c := fun c => by
    simp [List.getD_eq_getElem?_getD, hi]
  have hmap : ∀ f : ℂ → ℂ, (label.map f).getD i 0 = f (label.getD i 0) := fun f => by
    have h : i < label.length := by rw [hl]; exact hi
    simp [List.getD_eq_getElem?_getD, h]
  have hyi : (label.getD i 0).im = 0 := by
    have h : i < label.length := by rw [hl]; exact hi
    rw [List.getD_eq_getElem _ _ h]
    exact hy _ (List.getElem_mem h)
  have hg : ‖p.gamma / p.batchSize * p.c3‖ = ‖p.gamma‖ / p.batchSize * ‖p.c3‖ := by
    rw [norm_mul, norm_div, Complex.norm_natCast]
  refine ⟨?_, ?_, ?_, ?_, ?_, ?_, ?_, ?_, ?_⟩
  · rw [fconst1, hmap]
    have := (((app_a hF p).mul (app_y hF p hyi)).rnd hF).le (by norm_num)
    norm_num at this ⊢
    exact this
  · rw [fconst2, hmap]
    have := (((app_ea hF p iter).mul (app_y hF p hyi)).rnd hF).le (by norm_num)
    norm_num at this ⊢
    exact this
  · rw [fconst3, hrep, hg]
    have := (((app_a hF p).mul (app_base hF p.c3)).rnd hF).le (by norm_num)
    norm_num at this ⊢
    exact this
  · rw [fconst4, hrep, hg]
    have := (((app_ea hF p iter).mul (app_base hF p.c3)).rnd hF).le (by norm_num)
    norm_num [mul_assoc, mul_div_assoc] at this ⊢
    exact this
  · rw [fconst5, hrep]
    have := (((app_base hF p.c1).mul (App.inv hF p.c3)).rnd hF).le (by norm_num)
    rw [div_eq_mul_inv, div_eq_mul_inv, norm_mul]
    norm_num at this ⊢
    exact this
  · rw [fconst6, hrep]
    have := (app_e hF p iter).le (by norm_num)
    norm_num at this ⊢
    exact this
  · rw [fconst7, hrep]; exact hF.cx _
  · rw [fconst8, hrep]; exact hF.cx _
  · rw [fconst9, hrep]; exact hF.cx _

end MK.Lr
