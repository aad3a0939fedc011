import Verif.Props.Toy
import Verif.Props.FlConst

/-!
# C63: the normalisation of the toy programs in float64
-/

noncomputable section

namespace MK.Lr

open Finset

/-- Half the distance of neighbouring float64 numbers, relative. -/
local notation "u" => (1 / 2 ^ 53 : ℝ)

/-- What IEEE-754 says of the square root: the nearest float64 number. -/
def SqrtOk (sq : ℝ → ℝ) : Prop := ∀ x, 0 ≤ x → |sq x - Real.sqrt x| ≤ Real.sqrt x / 2 ^ 53

theorem sqrt_ok : SqrtOk Real.sqrt := fun x _ => by simp; positivity

/-- The square root, rounded to 53 significant bits. -/
def sqrt53 (x : ℝ) : ℝ :=
  round (Real.sqrt x / 2 ^ (Int.log 2 (Real.sqrt x) - 52)) * 2 ^ (Int.log 2 (Real.sqrt x) - 52)

theorem sqrt53_ok : SqrtOk sqrt53 := by
  intro x _
  unfold sqrt53
  rcases (Real.sqrt_nonneg x).eq_or_lt with h0 | h0
  · rw [← h0]; simp
  generalize Real.sqrt x = y at h0
  have hpos : (0 : ℝ) < 2 ^ (Int.log 2 y - 52) := zpow_pos (by norm_num) _
  have h := Int.zpow_log_le_self (b := 2) (r := y) (by norm_num) h0
  have h' : ((2 : ℕ) : ℝ) ^ Int.log 2 y = 2 ^ (Int.log 2 y - 52) * 2 ^ 52 := by
    rw [zpow_sub₀ (by norm_num)]
    norm_num
  rw [h'] at h
  generalize (2 : ℝ) ^ (Int.log 2 y - 52) = w at hpos h
  have e : (round (y / w) : ℝ) * w - y = (round (y / w) - y / w) * w := by
    rw [sub_mul, div_mul_cancel₀ _ hpos.ne']
  rw [e, abs_mul, abs_of_pos hpos]
  have h3 : |((round (y / w) : ℤ) : ℝ) - y / w| ≤ 1 / 2 := by
    rw [abs_sub_comm]; exact abs_sub_round _
  have := mul_le_mul_of_nonneg_right h3 hpos.le
  norm_num at h ⊢
  linarith

/-! ## Rounding errors of real computations -/

theorem _root_.MK.Fl.cx_ofReal (F : Fl) (x : ℝ) : F.cx (x : ℂ) = (F.re x : ℂ) := by
  by_cases h : ∃ q : ℚ, x = q
  · obtain ⟨q, rfl⟩ := h
    rw [Fl.re_rat]
    have := F.cx_rat q
    push_cast
    exact this
  · have h' : ¬∃ q : ℚ, (x : ℂ) = q := by
      rintro ⟨q, hq⟩
      exact h ⟨q, by exact_mod_cast hq⟩
    rw [Fl.re, dif_neg h, Fl.cx, dif_neg h']

theorem App.add {k : ℕ} {b c : ℝ} {x x' y y' : ℂ} (h : App k b x x') (g : App k c y y') :
    App k (b + c) (x + y) (x' + y') := by
  have := h.sub g.neg
  simpa using this

theorem App.widen {k : ℕ} {b c : ℝ} {x x' : ℂ} (h : App k b x x') (hc : b ≤ c) : App k c x x' :=
  ⟨h.1.trans hc, h.2.trans (mul_le_mul_of_nonneg_left hc (by have := one_le_pow_u k; linarith))⟩

theorem App.re {F : Fl} (hF : F.Ok) {k : ℕ} {b x x' : ℝ} (h : App k b (x : ℂ) (x' : ℂ)) :
    App (k + 1) b (x : ℂ) (F.re x' : ℂ) := by
  rw [← Fl.cx_ofReal]; exact h.rnd hF

theorem App.flSum {F : Fl} (hF : F.Ok) {k : ℕ} {b : ℝ} {f f' : ℕ → ℝ} {n : ℕ}
    (h : ∀ i < n, App k b (f i : ℂ) (f' i : ℂ)) :
    App (k + n) (n * b) ((∑ i ∈ range n, f i : ℝ) : ℂ) (Lr.flSum F f' n : ℂ) := by
  induction n with
  | zero => simp [App, Lr.flSum]
  | succ n ih =>
    have h1 := (ih fun i hi => h i (by omega)).add ((h n (by omega)).mono (Nat.le_add_right k n))
    rw [Lr.flSum, sum_range_succ]
    have h2 : App (k + n) (n * b + b) ((∑ i ∈ range n, f i + f n : ℝ) : ℂ)
        ((Lr.flSum F f' n + f' n : ℝ) : ℂ) := by
      push_cast at h1 ⊢; exact h1
    have h3 := h2.re hF
    rw [show ((n + 1 : ℕ) : ℝ) * b = n * b + b by push_cast; ring]
    exact h3

theorem pow_u_le {k : ℕ} (hk : 2 * k ≤ 2 ^ 53) : (1 + u) ^ k - 1 ≤ 2 * k * u := by
  have hk' : (2 * k : ℝ) ≤ 2 ^ 53 := by exact_mod_cast hk
  have h1 : 1 + (k : ℝ) * (-u) ≤ (1 + -u) ^ k := one_add_mul_le_pow (by norm_num) k
  have h2 : (1 + u) ^ k * (1 + -u) ^ k ≤ 1 := by
    rw [← mul_pow]
    exact pow_le_one₀ (by norm_num) (by norm_num)
  have h3 := one_le_pow_u k
  have h4 : (k : ℝ) * u ≤ 1 / 2 := by
    have := mul_le_mul_of_nonneg_right hk' (show (0 : ℝ) ≤ u by norm_num)
    norm_num at this ⊢
    linarith
  have h5 : 0 ≤ (k : ℝ) * u := by positivity
  have h6 := mul_le_mul_of_nonneg_left h1 (show (0 : ℝ) ≤ (1 + u) ^ k by linarith)
  have h7 : (1 + u) ^ k * (1 - k * u) ≤ 1 := by linarith
  rw [mul_assoc]
  generalize (1 + u) ^ k = y at h3 h7 ⊢
  generalize (k : ℝ) * u = z at h4 h5 h7
  have h8 : y * (1 - z) ≤ (1 + 2 * z) * (1 - z) := by nlinarith
  have := le_of_mul_le_mul_right h8 (by linarith)
  linarith

theorem App.lin {k : ℕ} {b x x' : ℝ} (h : App k b (x : ℂ) (x' : ℂ)) (hk : 2 * k ≤ 2 ^ 53) :
    |x' - x| ≤ 2 * k * u * b := by
  have := h.2.trans (mul_le_mul_of_nonneg_right (pow_u_le hk) h.b0)
  rwa [← Complex.ofReal_sub, Complex.norm_real, Real.norm_eq_abs] at this

/-- The square root of a perturbed square. -/
theorem sqrt_near {sq : ℝ → ℝ} (hsq : SqrtOk sq) {s v ρ : ℝ} (hs : 0 < s) (hρ : ρ ≤ 1)
    (hv : |v - s ^ 2| ≤ ρ * s ^ 2) : |sq v - s| ≤ (ρ + 2 * u) * s := by
  have hs2 : 0 < s ^ 2 := by positivity
  have hv0 : 0 ≤ v := by
    have := (abs_le.mp hv).1
    nlinarith
  have h1 := hsq v hv0
  have hr := Real.sqrt_nonneg v
  have h2 : |Real.sqrt v - s| ≤ ρ * s := by
    have e : v - s ^ 2 = (Real.sqrt v - s) * (Real.sqrt v + s) := by
      have := Real.sq_sqrt hv0
      nlinarith
    rw [e, abs_mul, abs_of_pos (by linarith : 0 < Real.sqrt v + s)] at hv
    have h3 : |Real.sqrt v - s| * s ≤ |Real.sqrt v - s| * (Real.sqrt v + s) :=
      mul_le_mul_of_nonneg_left (by linarith) (abs_nonneg _)
    have h4 : |Real.sqrt v - s| * s ≤ ρ * s * s := by nlinarith
    exact le_of_mul_le_mul_right h4 hs
  have h5 : Real.sqrt v ≤ 2 * s := by
    have := (abs_le.mp h2).2
    nlinarith
  have h6 := abs_sub_le (sq v) (Real.sqrt v) s
  have h7 : Real.sqrt v / 2 ^ 53 ≤ 2 * u * s := by linarith
  linarith

/-- The quotient of perturbed numbers. -/
theorem quot_near {F : Fl} (hF : F.Ok) {d d' s s' κ N : ℝ} (hs : 0 < s) (hκ : 1 ≤ κ) (hN : 2 ≤ N)
    (hsmall : N * κ ^ 2 ≤ 2 ^ 46) (hd : |d| ≤ 2 * κ * s) (hd' : |d' - d| ≤ 4 * N * u * (κ * s))
    (hs' : |s' - s| ≤ 49 * (N * u * κ ^ 2) * s) :
    s' ≠ 0 ∧ |F.re (d' / s') - d / s| ≤ N * κ ^ 3 / 2 ^ 45 := by
  obtain ⟨ω, hω⟩ : ∃ ω, ω = N * u * κ ^ 2 := ⟨_, rfl⟩
  have hω0 : 0 ≤ ω := by rw [hω]; positivity
  have hω1 : 128 * ω ≤ 1 := by
    have : ω = N * κ ^ 2 * u := by rw [hω]; ring
    have h2 := mul_le_mul_of_nonneg_right hsmall (show (0 : ℝ) ≤ u by norm_num)
    rw [← this] at h2
    norm_num at h2 ⊢
    linarith
  have hωu : 2 * u ≤ ω := by
    have h1 : (1 : ℝ) ≤ κ ^ 2 := one_le_pow₀ hκ
    have h2 : 2 * 1 ≤ N * κ ^ 2 := mul_le_mul hN h1 (by norm_num) (by linarith)
    rw [hω]
    have := mul_le_mul_of_nonneg_right h2 (show (0 : ℝ) ≤ u by norm_num)
    linarith
  have hd2 : |d' - d| ≤ 4 * ω * κ * s := by
    refine hd'.trans ?_
    have h1 : κ * 1 ≤ κ * κ ^ 2 := mul_le_mul_of_nonneg_left (one_le_pow₀ hκ) (by linarith)
    have h2 : 0 ≤ 4 * N * u * s := by positivity
    have := mul_le_mul_of_nonneg_left h1 h2
    rw [hω]
    linarith
  rw [← hω] at hs'
  have hs2 : s / 2 ≤ s' := by
    have h1 := (abs_le.mp hs').1
    have h2 := mul_le_mul_of_nonneg_right hω1 hs.le
    nlinarith
  have hs'0 : 0 < s' := by linarith
  have hq : |d' / s' - d / s| ≤ 204 * ω * κ := by
    have e : d' / s' - d / s = ((d' - d) * s + d * (s - s')) / (s' * s) := by
      field_simp
      ring
    rw [e, abs_div, abs_of_pos (mul_pos hs'0 hs), div_le_iff₀ (mul_pos hs'0 hs)]
    have h1 : |(d' - d) * s + d * (s - s')| ≤ |d' - d| * s + |d| * |s' - s| := by
      refine (abs_add_le _ _).trans ?_
      rw [abs_mul, abs_mul, abs_of_pos hs, abs_sub_comm s s']
    have h2 : |d' - d| * s ≤ 4 * ω * κ * s * s := mul_le_mul_of_nonneg_right hd2 hs.le
    have h3 : |d| * |s' - s| ≤ 2 * κ * s * (49 * ω * s) :=
      mul_le_mul hd hs' (abs_nonneg _) (by positivity)
    have h4 : 204 * ω * κ * (s / 2 * s) ≤ 204 * ω * κ * (s' * s) :=
      mul_le_mul_of_nonneg_left (mul_le_mul_of_nonneg_right hs2 hs.le) (by positivity)
    linarith
  refine ⟨hs'0.ne', ?_⟩
  have hds : |d / s| ≤ 2 * κ := by
    rw [abs_div, abs_of_pos hs, div_le_iff₀ hs]; exact hd
  have hrd : |F.re (d' / s') - d' / s'| ≤ u * |d' / s'| := by
    have := hF.cx ((d' / s' : ℝ) : ℂ)
    rwa [Fl.cx_ofReal, ← Complex.ofReal_sub, Complex.norm_real, Complex.norm_real, Real.norm_eq_abs,
      Real.norm_eq_abs] at this
  have hab : |d' / s'| ≤ 4 * κ := by
    have h1 := abs_sub_abs_le_abs_sub (d' / s') (d / s)
    have h2 : 204 * ω * κ ≤ 2 * κ := mul_le_mul_of_nonneg_right (by linarith) (by linarith)
    linarith
  have h1 := abs_sub_le (F.re (d' / s')) (d' / s') (d / s)
  have h2 : u * |d' / s'| ≤ u * (4 * κ) := mul_le_mul_of_nonneg_left hab (by norm_num)
  have h3 : 2 * u * κ ≤ ω * κ := mul_le_mul_of_nonneg_right hωu (by linarith)
  have h4 : 0 ≤ ω * κ := mul_nonneg hω0 (by linarith)
  have h5 : N * κ ^ 3 / 2 ^ 45 = 256 * (ω * κ) := by rw [hω]; ring
  rw [h5]
  linarith

/-! ## C63 -/

/-- The selected entries are the standard scores up to `e`; the others are as they were, rows of the same
length. -/
structure NearNormalised (e : ℝ) (pop : ℕ) (den : ℝ) (numFeature numData : ℕ) (sel : ℕ → Bool)
    (data out : List (List ℂ)) : Prop where
  len : out.length = data.length
  rows : ∀ i, (out.getD i []).length = (data.getD i []).length
  real : ∀ i < numData, ∀ j < numFeature, sel j = true → (entry out i j).im = 0
  vals : ∀ i < numData, ∀ j < numFeature, sel j = true → |(entry out i j).re -
    ((entry data i j).re - colMean data pop j) / Real.sqrt (colVar data pop den j)| ≤ e
  keep : ∀ i j, ¬ (i < numData ∧ j < numFeature ∧ sel j = true) → entry out i j = entry data i j

/-- One column: the computed standard deviation is not zero, and the computed scores are near the exact
ones. -/
theorem flScore_near {F : Fl} (hF : F.Ok) {sq : ℝ → ℝ} (hsq : SqrtOk sq) {pop : ℕ} {den κ : ℝ}
    {data : List (List ℂ)} {j : ℕ} (hpop : 0 < pop) (hden : pop ≤ 2 * den) (hκ : 1 ≤ κ)
    (hsmall : (pop + 2) * κ ^ 2 ≤ 2 ^ 46) (hv : 0 < colVar data pop den j)
    (hx : ∀ i < pop, |(entry data i j).re| ≤ κ * Real.sqrt (colVar data pop den j)) :
    flStd F sq data pop den j ≠ 0 ∧ ∀ i, |(entry data i j).re| ≤ κ * Real.sqrt (colVar data pop den j) →
      |flScore F sq data pop den i j -
        ((entry data i j).re - colMean data pop j) / Real.sqrt (colVar data pop den j)| ≤
        (pop + 2) * κ ^ 3 / 2 ^ 45 := by
  have hp0 : (0 : ℝ) < pop := by exact_mod_cast hpop
  have hden0 : 0 < den := by linarith
  obtain ⟨s, hs⟩ : ∃ s, s = Real.sqrt (colVar data pop den j) := ⟨_, rfl⟩
  have hs0 : 0 < s := by rw [hs]; exact Real.sqrt_pos.mpr hv
  have hs2 : s ^ 2 = colVar data pop den j := by rw [hs, Real.sq_sqrt hv.le]
  rw [← hs] at hx ⊢
  have hcount : 2 * (3 * pop + 6) ≤ 2 ^ 53 := by
    have h1 : ((pop : ℝ) + 2) * 1 ≤ (pop + 2) * κ ^ 2 :=
      mul_le_mul_of_nonneg_left (one_le_pow₀ hκ) (by linarith)
    have h2 : (pop : ℝ) + 2 ≤ 2 ^ 46 := by linarith
    have h3 : pop + 2 ≤ 2 ^ 46 := by exact_mod_cast h2
    omega
  have ax : ∀ {x : ℝ}, |x| ≤ κ * s → App 0 (κ * s) (x : ℂ) (x : ℂ) := fun {x} hx => by
    have h1 := App.refl (x : ℂ)
    rw [Complex.norm_real, Real.norm_eq_abs] at h1
    exact h1.widen hx
  have am : App (pop + 1) (κ * s) (colMean data pop j : ℂ) (flMean F data pop j : ℂ) := by
    have h1 := (App.flSum hF fun i hi => ax (hx i hi)).divNat pop
    rw [mul_div_cancel_left₀ _ hp0.ne', zero_add] at h1
    have h2 : App pop (κ * s) (colMean data pop j : ℂ)
        ((flSum F (fun i => (entry data i j).re) pop / pop : ℝ) : ℂ) := by
      rw [colMean]; push_cast at h1 ⊢; exact h1
    exact h2.re hF
  have ad : ∀ {x : ℝ}, |x| ≤ κ * s → App (pop + 2) (2 * (κ * s)) ((x - colMean data pop j : ℝ) : ℂ)
      (F.re (x - flMean F data pop j) : ℂ) := fun {x} hx => by
    have h1 := ((ax hx).mono (Nat.zero_le (pop + 1))).sub am
    rw [← two_mul] at h1
    refine App.re hF ?_
    push_cast; exact h1
  have av : App (3 * pop + 6) (8 * (κ * s) ^ 2) (colVar data pop den j : ℂ)
      (F.re (flSum F (fun i => F.re (F.re ((entry data i j).re - flMean F data pop j) ^ 2)) pop / den)
        : ℂ) := by
    have h1 : ∀ i < pop, App (2 * pop + 5) (4 * (κ * s) ^ 2)
        (((((entry data i j).re - colMean data pop j) ^ 2 : ℝ)) : ℂ)
        (F.re (F.re ((entry data i j).re - flMean F data pop j) ^ 2) : ℂ) := by
      intro i hi
      have h2 := (ad (hx i hi)).mul (ad (hx i hi))
      rw [show 2 * pop + 5 = pop + 2 + (pop + 2) + 1 by ring,
        show 4 * (κ * s) ^ 2 = 2 * (κ * s) * (2 * (κ * s)) by ring]
      refine App.re hF ?_
      rw [pow_two, pow_two]
      push_cast at h2 ⊢; exact h2
    have h3 := (App.flSum hF h1).mul (App.refl ((den⁻¹ : ℝ) : ℂ))
    rw [Complex.norm_real, Real.norm_eq_abs, abs_of_pos (inv_pos.mpr hden0)] at h3
    have h4 : pop * (4 * (κ * s) ^ 2) * den⁻¹ ≤ 8 * (κ * s) ^ 2 := by
      rw [← div_eq_mul_inv, div_le_iff₀ hden0]
      have := mul_le_mul_of_nonneg_right hden (show 0 ≤ 4 * (κ * s) ^ 2 by positivity)
      linarith
    rw [show 3 * pop + 6 = 2 * pop + 5 + pop + 0 + 1 by ring]
    refine App.re hF (App.widen ?_ h4)
    rw [colVar, div_eq_mul_inv, div_eq_mul_inv]
    push_cast at h3 ⊢; exact h3
  have hstd := sqrt_near hsq hs0 (ρ := 48 * ((pop + 2) * u * κ ^ 2)) (by
      have h2 := mul_le_mul_of_nonneg_right hsmall (show (0 : ℝ) ≤ u by norm_num)
      norm_num at h2 ⊢
      linarith) (by
    have := av.lin hcount
    rw [← hs2] at this
    refine this.trans (le_of_eq ?_)
    push_cast; ring)
  have hstd' : |flStd F sq data pop den j - s| ≤ 49 * ((pop + 2) * u * κ ^ 2) * s := by
    refine hstd.trans (mul_le_mul_of_nonneg_right ?_ hs0.le)
    have h1 : (1 : ℝ) ≤ κ ^ 2 := one_le_pow₀ hκ
    have h2 : 2 * 1 ≤ ((pop : ℝ) + 2) * κ ^ 2 := mul_le_mul (by linarith) h1 (by norm_num) (by linarith)
    have := mul_le_mul_of_nonneg_right h2 (show (0 : ℝ) ≤ u by norm_num)
    linarith
  have hd : ∀ {x : ℝ}, |x| ≤ κ * s → |x - colMean data pop j| ≤ 2 * κ * s ∧
      |F.re (x - flMean F data pop j) - (x - colMean data pop j)| ≤ 4 * (pop + 2) * u * (κ * s) := by
    intro x hx
    have h1 := ad hx
    refine ⟨?_, ?_⟩
    · have := h1.1
      rw [Complex.norm_real, Real.norm_eq_abs] at this
      linarith
    · refine (h1.lin (by omega)).trans (le_of_eq ?_)
      push_cast; ring
  have key := fun {x : ℝ} (hx : |x| ≤ κ * s) => quot_near hF hs0 hκ (by linarith) hsmall (hd hx).1 (hd hx).2 hstd'
  exact ⟨(key (hx 0 hpop)).1, fun i hi => (key hi).2⟩

/-- **C63.** If in every selected column all entries are within `κ` standard deviations of zero, then the
normalisation in float64 succeeds, divides by no zero, and yields the exact standard scores up to
`(pop + 2) κ³ / 2^45`; all else is unchanged.  This for any rounding with relative error `2^-53`, any such
square root, any table. -/
theorem C63_normalise {F : Fl} (hF : F.Ok) {sq : ℝ → ℝ} (hsq : SqrtOk sq) {pop : ℕ} {den κ : ℝ}
    {numFeature numData : ℕ} {sel : ℕ → Bool} {data : List (List ℂ)}
    (hr : ∀ i < pop, ∀ j < numFeature, i < data.length ∧ j < (data.getD i []).length)
    (hs : ∀ i < numData, ∀ j < numFeature, sel j = true →
      i < data.length ∧ j < (data.getD i []).length)
    (hpop : 0 < pop) (hden : pop ≤ 2 * den) (hκ : 1 ≤ κ) (hsmall : (pop + 2) * κ ^ 2 ≤ 2 ^ 46)
    (hvary : ∀ j < numFeature, sel j = true → Varies data pop j)
    (hx : ∀ i, i < pop ∨ i < numData → ∀ j < numFeature, sel j = true →
      |(entry data i j).re| ≤ κ * Real.sqrt (colVar data pop den j)) :
    ∃ out, normalise F sq pop den numFeature numData sel data = .ok out ∧
      (∀ j < numFeature, sel j = true → ∀ m, meanStd F sq data pop den j = .ok m → m.2 ≠ 0) ∧
      NearNormalised ((pop + 2) * κ ^ 3 / 2 ^ 45) pop den numFeature numData sel data out := by
  have hp0 : (0 : ℝ) < pop := by exact_mod_cast hpop
  have key := fun j hj hj' => flScore_near (sq := sq) hF hsq hpop hden hκ hsmall
    (colVar_pos (by linarith) (hvary j hj hj')) fun i hi => hx i (.inl hi) j hj hj'
  obtain ⟨out, e, h⟩ := normalise_spec F sq (den := den) hr hs
  refine ⟨out, e, fun j hj hj' m hm => ?_, h.len, h.rows, fun i hi j hj hj' => ?_,
    fun i hi j hj hj' => ?_, h.keep⟩
  · rw [meanStd_spec F sq den fun i hi => hr i hi j hj] at hm
    obtain rfl := Except.ok.inj hm
    exact (key j hj hj').1
  · rw [h.vals i hi j hj hj', Complex.ofReal_im]
  · rw [h.vals i hi j hj hj', Complex.ofReal_re]
    exact (key j hj hj').2 i (hx i (.inr hi) j hj hj')

end MK.Lr
