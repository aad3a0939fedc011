import Verif.Props.Ieee
import Verif.Props.FlNorm

/-!
# C67: float64 with its limited exponent range — an instance, and the normalisation of the toy programs
-/

noncomputable section

namespace MK

/-! ## Doubles -/

theorem OnGrid.mono {g g' : ℕ} {x : ℚ} (h : OnGrid g x) (hg : g ≤ g') : OnGrid g' x := by
  obtain ⟨k, rfl⟩ := h
  obtain ⟨d, rfl⟩ := Nat.exists_eq_add_of_le hg
  refine ⟨k * 2 ^ d, ?_⟩
  rw [pow_add]
  push_cast
  field_simp

theorem OnGrid.zpow {g : ℕ} {e : ℤ} (j : ℤ) (h : -(g : ℤ) ≤ e) : OnGrid g (j * 2 ^ e) := by
  obtain ⟨d, hd⟩ := Int.eq_ofNat_of_zero_le (show 0 ≤ e + g by omega)
  refine ⟨j * 2 ^ d, ?_⟩
  have : (2 : ℚ) ^ e = 2 ^ d / 2 ^ g := by
    rw [show e = (d : ℤ) - (g : ℤ) by omega, zpow_sub₀ (by norm_num), zpow_natCast, zpow_natCast]
  rw [this]
  push_cast
  ring

theorem rnd53_grid {g : ℕ} {x : ℚ} (h : OnGrid g x) : OnGrid g (rnd53 x) := by
  rcases le_or_gt (-(g : ℤ)) (Int.log 2 |x| - 52) with hg | hg
  · have := OnGrid.zpow (g := g) (SignType.sign x * round (|x| / ulp x)) hg
    unfold rnd53
    rw [← mul_assoc]
    have e : ((SignType.sign x : ℤ) : ℚ) = (SignType.sign x : ℚ) := by
      rcases SignType.sign x with _ | _ | _ <;> simp
    rw [Int.cast_mul, e] at this
    exact this
  · obtain ⟨d, hd⟩ := Int.eq_ofNat_of_zero_le (show 0 ≤ -(g : ℤ) - (Int.log 2 |x| - 52) by omega)
    have hz : ∃ z : ℤ, |x| / ulp x = z := by
      obtain ⟨k, hk⟩ := h
      refine ⟨|k| * 2 ^ d, ?_⟩
      have h1 : ulp x = (2 ^ g)⁻¹ / 2 ^ d := by
        unfold ulp
        rw [show Int.log 2 |x| - 52 = -(g : ℤ) - (d : ℤ) by omega, zpow_sub₀ (by norm_num), zpow_neg,
          zpow_natCast, zpow_natCast]
      rw [h1, hk, abs_div, abs_of_pos (show (0 : ℚ) < 2 ^ g by positivity)]
      push_cast
      field_simp
    have : rnd53 x = x := by
      obtain ⟨z, hz⟩ := hz
      unfold rnd53
      rw [hz, round_intCast, ← hz, div_mul_cancel₀ _ (ulp_pos x).ne', sign_mul_abs]
    rw [this]; exact h

theorem rnd53_sig {m : ℕ} {x : ℚ} (h : 1 / 2 ^ m ≤ |x|) : OnGrid (m + 52) (rnd53 x) := by
  have hx : 0 < |x| := lt_of_lt_of_le (by positivity) h
  have hl : -(m : ℤ) ≤ Int.log 2 |x| := by
    rw [← Int.zpow_le_iff_le_log (by norm_num) hx, zpow_neg, zpow_natCast]
    simpa using h
  have := OnGrid.zpow (g := m + 52) (e := Int.log 2 |x| - 52) (SignType.sign x * round (|x| / ulp x))
    (by push_cast; omega)
  unfold rnd53
  rw [← mul_assoc]
  have e : ((SignType.sign x : ℤ) : ℚ) = (SignType.sign x : ℚ) := by
    rcases SignType.sign x with _ | _ | _ <;> simp
  rw [Int.cast_mul, e] at this
  exact this

/-- Double precision: 53 bits in the normal range, multiples of `2^-1074` below; above the largest number
`±2^1024` stands for the infinities. -/
def Fl.ieee : Fl := ⟨fun x =>
  if |x| < 1 / 2 ^ 1022 then round (x * 2 ^ 1074) / 2 ^ 1074
  else if |x| < 2 ^ 1024 - 2 ^ 970 then rnd53 x
  else SignType.sign x * 2 ^ 1024⟩

theorem Fl.ieee_normal {x : ℚ} (h : Normal x) : Fl.ieee.rnd x = rnd53 x := by
  rcases h with rfl | ⟨h1, h2⟩
  · simp [Fl.ieee, rnd53_zero]
  · simp only [Fl.ieee]
    rw [if_neg (not_lt.mpr h1), if_pos (lt_of_le_of_lt h2 ?_)]
    have h3 : (2 : ℚ) ^ 970 < 2 ^ 1023 := pow_lt_pow_right₀ (by norm_num) (by norm_num)
    have h4 : (2 : ℚ) ^ 1024 = 2 ^ 1023 * 2 := pow_succ 2 1023
    rw [h4]
    generalize (2 : ℚ) ^ 970 = a at h3
    generalize (2 : ℚ) ^ 1023 = b at h3
    linarith

theorem Fl.ieee_ok : Fl.ieee.Ieee where
  rel x hx := by rw [Fl.ieee_normal hx]; exact Fl.double_ok.rel x
  int n hn := by rw [Fl.ieee_normal (Normal.int hn)]; exact Fl.double_ok.int n hn
  neg x hx := by rw [Fl.ieee_normal hx, Fl.ieee_normal hx.neg]; exact Fl.double_ok.neg x
  grid x hx g h := by rw [Fl.ieee_normal hx]; exact rnd53_grid h
  sig x hx m h := by rw [Fl.ieee_normal hx]; exact rnd53_sig h

theorem Fl.ieee_tiny : Fl.ieee.rnd (1 / 2 ^ 1080) = 0 := by
  simp only [Fl.ieee]
  have hlt : |(1 / 2 ^ 1080 : ℚ)| < 1 / 2 ^ 1022 := by
    rw [abs_of_pos (by positivity)]
    exact one_div_lt_one_div_of_lt (by positivity) (pow_lt_pow_right₀ (by norm_num) (by norm_num))
  have e : (1 / 2 ^ 1080 : ℚ) * 2 ^ 1074 = 1 / 64 := by
    rw [show (1080 : ℕ) = 1074 + 6 by norm_num, pow_add]
    field_simp
    norm_num
  have hr : round (1 / 64 : ℚ) = 0 := by
    rw [round_eq_zero_iff]; constructor <;> norm_num
  rw [if_pos hlt, e, hr]; simp

/-- It is not good everywhere: tiny results become zero. -/
theorem Fl.ieee_not_ok : ¬ Fl.ieee.Ok := by
  intro h
  have h1 := h.rel (1 / 2 ^ 1080)
  rw [Fl.ieee_tiny, zero_sub, abs_neg] at h1
  have h3 : (0 : ℚ) < |1 / 2 ^ 1080| := abs_pos.mpr (by positivity)
  have h4 : |(1 / 2 ^ 1080 : ℚ)| / 2 ^ 53 < |1 / 2 ^ 1080| := div_lt_self h3 (by norm_num)
  exact absurd h1 (not_le.mpr h4)

namespace Lr

/-! ## The normalisation -/

/-- `x` is a multiple of `2^-g` of magnitude at most `2^b`. -/
def Dyadic (g b : ℕ) (x : ℝ) : Prop := (∃ k : ℤ, x = k / 2 ^ g) ∧ |x| ≤ 2 ^ b

section Dyadic

variable {G : Fl} {g b c : ℕ} {x y : ℝ}

theorem Dyadic.mono (h : Dyadic g b x) (hb : b ≤ c) : Dyadic g c x :=
  ⟨h.1, h.2.trans (pow_le_pow_right₀ (by norm_num) hb)⟩

theorem Dyadic.fine (h : Dyadic g b x) (hg : g ≤ c) : Dyadic c b x := by
  obtain ⟨⟨k, hk⟩, hb⟩ := h
  obtain ⟨d, rfl⟩ := Nat.exists_eq_add_of_le hg
  refine ⟨⟨k * 2 ^ d, ?_⟩, hb⟩
  rw [hk, pow_add]
  push_cast
  field_simp

theorem Dyadic.add (h : Dyadic g b x) (h' : Dyadic g b y) : Dyadic g (b + 1) (x + y) := by
  obtain ⟨⟨k, hk⟩, hb⟩ := h
  obtain ⟨⟨k', hk'⟩, hb'⟩ := h'
  refine ⟨⟨k + k', by rw [hk, hk']; push_cast; ring⟩, ?_⟩
  rw [pow_succ]
  linarith [abs_add_le x y]

theorem Dyadic.neg (h : Dyadic g b x) : Dyadic g b (-x) := by
  obtain ⟨⟨k, hk⟩, hb⟩ := h
  exact ⟨⟨-k, by rw [hk]; push_cast; ring⟩, by rwa [abs_neg]⟩

theorem Dyadic.sub (h : Dyadic g b x) (h' : Dyadic g b y) : Dyadic g (b + 1) (x - y) := by
  rw [sub_eq_add_neg]; exact h.add h'.neg

theorem Dyadic.square (h : Dyadic g b x) : Dyadic (2 * g) (2 * b) (x ^ 2) := by
  obtain ⟨⟨k, hk⟩, hb⟩ := h
  refine ⟨⟨k ^ 2, by rw [hk, two_mul, pow_add]; push_cast; ring⟩, ?_⟩
  rw [abs_pow, mul_comm 2 b, pow_mul]
  exact pow_le_pow_left₀ (abs_nonneg _) hb 2

/-- What is a dyadic number in range rounds the same way. -/
theorem re_agree {q : ℚ} (h : Normal q) : G.re (q : ℝ) = G.total.re (q : ℝ) := by
  rw [Fl.re_rat, Fl.re_rat, G.agree_total q h]

theorem re_le (hF : G.Ok) {q : ℚ} (h : |(q : ℝ)| ≤ 2 ^ b) : |G.re (q : ℝ)| ≤ 2 ^ (b + 1) := by
  rw [Fl.re_rat]
  have h1 := hF.rel q
  have h2 : |((G.rnd q : ℚ) : ℝ) - q| ≤ |(q : ℝ)| / 2 ^ 53 := by exact_mod_cast h1
  have h3 := abs_sub_abs_le_abs_sub ((G.rnd q : ℚ) : ℝ) q
  have h4 : |(q : ℝ)| / 2 ^ 53 ≤ |(q : ℝ)| := div_le_self (abs_nonneg _) (by norm_num)
  rw [pow_succ]
  linarith

theorem normal_of {k : ℕ} {q : ℚ} (h : q = 0 ∨ 1 / 2 ^ k ≤ |q|) (hk : k ≤ 1022)
    (hb : |(q : ℝ)| ≤ 2 ^ b) (hb' : b ≤ 1022) : Normal q := by
  refine h.imp_right fun h => ⟨le_trans ?_ h, ?_⟩
  · exact one_div_le_one_div_of_le (by positivity) (pow_le_pow_right₀ (by norm_num) hk)
  · have : |q| ≤ 2 ^ b := by exact_mod_cast hb
    exact this.trans (pow_le_pow_right₀ (by norm_num) (by omega))

theorem grid_min {q : ℚ} (h : OnGrid g q) : q = 0 ∨ 1 / 2 ^ g ≤ |q| := by
  obtain ⟨k, rfl⟩ := h
  rcases eq_or_ne k 0 with rfl | hk
  · left; simp
  right
  rw [abs_div, abs_of_pos (show (0 : ℚ) < 2 ^ g by positivity)]
  have : (1 : ℚ) ≤ |(k : ℚ)| := by exact_mod_cast Int.one_le_abs hk
  gcongr

theorem Dyadic.re (hG : G.Ieee) (h : Dyadic g b x) (hg : g ≤ 1022) (hb : b ≤ 1022) :
    G.re x = G.total.re x ∧ Dyadic g (b + 1) (G.re x) := by
  obtain ⟨⟨k, hk⟩, hx⟩ := h
  obtain ⟨q, hq⟩ : ∃ q : ℚ, q = k / 2 ^ g := ⟨_, rfl⟩
  have hxq : x = (q : ℝ) := by rw [hk, hq]; push_cast; rfl
  subst hxq
  have hn : Normal q := normal_of (grid_min ⟨k, hq⟩) hg hx hb
  refine ⟨re_agree hn, ?_, ?_⟩
  · obtain ⟨j, hj⟩ := hG.grid q hn g ⟨k, hq⟩
    refine ⟨j, ?_⟩
    rw [Fl.re_rat, hj]; push_cast; rfl
  · rw [re_agree hn]
    exact re_le hG.total_ok hx

theorem Dyadic.div (hG : G.Ieee) (h : Dyadic g b x) {d m : ℕ} (hd : 1 ≤ d) (hm : d ≤ 2 ^ m)
    (hg : g + m ≤ 1022) (hb : b ≤ 1022) :
    G.re (x / d) = G.total.re (x / d) ∧ Dyadic (g + m + 52) (b + 1) (G.re (x / d)) := by
  obtain ⟨⟨k, hk⟩, hx⟩ := h
  obtain ⟨q, hq⟩ : ∃ q : ℚ, q = k / 2 ^ g := ⟨_, rfl⟩
  have hxq : x = (q : ℝ) := by rw [hk, hq]; push_cast; rfl
  subst hxq
  have hd0 : (0 : ℚ) < d := by exact_mod_cast hd
  have hmin : q / d = 0 ∨ 1 / 2 ^ (g + m) ≤ |q / d| := by
    rcases grid_min ⟨k, hq⟩ with h | h
    · left; rw [h]; simp
    right
    rw [abs_div, abs_of_pos hd0, pow_add, ← one_div_mul_one_div, ← mul_one_div |q|]
    have hm' : (d : ℚ) ≤ 2 ^ m := by exact_mod_cast hm
    exact mul_le_mul h (one_div_le_one_div_of_le hd0 hm') (by positivity) (abs_nonneg _)
  have hle : |((q / d : ℚ) : ℝ)| ≤ 2 ^ b := by
    push_cast
    have hd1 : (1 : ℝ) ≤ d := by exact_mod_cast hd
    rw [abs_div, abs_of_pos (show (0 : ℝ) < d by linarith)]
    exact (div_le_self (abs_nonneg _) hd1).trans hx
  have e : (q : ℝ) / d = ((q / d : ℚ) : ℝ) := by push_cast; rfl
  rw [e]
  have hn := normal_of hmin hg hle hb
  refine ⟨re_agree hn, ?_, ?_⟩
  · rcases hmin with h0 | h0
    · refine ⟨0, ?_⟩
      rw [h0, Fl.re_rat]
      have := hG.int 0 (by norm_num)
      rw [Int.cast_zero] at this
      rw [this]; simp
    · obtain ⟨j, hj⟩ := hG.sig _ hn _ h0
      refine ⟨j, ?_⟩
      rw [Fl.re_rat, hj]; push_cast; rfl
  · rw [re_agree hn]
    exact re_le hG.total_ok hle

theorem flSum_le {F : Fl} (hF : F.Ok) {f : ℕ → ℝ} {n m : ℕ} (h : ∀ i < n, |f i| ≤ 2 ^ b) (hn : n ≤ 2 ^ m)
    (hm : m ≤ 50) : |flSum F f n| ≤ 2 ^ (b + m + 1) := by
  have h1 := (App.flSum hF (k := 0) (b := 2 ^ b) (f := f) (f' := f) (n := n) fun i hi =>
    ⟨by rw [Complex.norm_real]; exact h i hi, by simp⟩).norm
  rw [Complex.norm_real, Real.norm_eq_abs, zero_add] at h1
  have hn' : (n : ℝ) ≤ 2 ^ m := by exact_mod_cast hn
  have hm' : 2 ^ m ≤ 2 ^ 50 := Nat.pow_le_pow_right (by norm_num) hm
  have h2 := pow_u_le (k := n) (by omega)
  have h3 : 2 * (n : ℝ) * (1 / 2 ^ 53) ≤ 1 := by
    have : (n : ℝ) ≤ 2 ^ 50 := by exact_mod_cast hn.trans hm'
    have := mul_le_mul_of_nonneg_right this (show (0 : ℝ) ≤ 2 * (1 / 2 ^ 53) by positivity)
    have e : (2 : ℝ) ^ 50 * (2 * (1 / 2 ^ 53)) ≤ 1 := by norm_num
    linarith
  have h4 : (1 + (1 / 2 ^ 53 : ℝ)) ^ n ≤ 2 := by linarith
  refine h1.trans ?_
  calc (1 + (1 / 2 ^ 53 : ℝ)) ^ n * (n * 2 ^ b) ≤ 2 * (2 ^ m * 2 ^ b) := by gcongr
    _ = 2 ^ (b + m + 1) := by ring

theorem flSum_agree (hG : G.Ieee) {f f' : ℕ → ℝ} {n m : ℕ} (h : ∀ i < n, f i = f' i ∧ Dyadic g b (f i))
    (hn : n ≤ 2 ^ m) (hm : m ≤ 50) (hg : g ≤ 1022) (hb : b + m + 2 ≤ 1022) :
    flSum G f n = flSum G.total f' n ∧ Dyadic g (b + m + 1) (flSum G f n) := by
  have hF := hG.total_ok
  have key : ∀ k ≤ n, flSum G f k = flSum G.total f' k ∧ ∃ j : ℤ, flSum G f k = j / 2 ^ g := by
    intro k
    induction k with
    | zero => intro _; exact ⟨rfl, 0, by simp [flSum]⟩
    | succ k ih =>
      intro hk
      obtain ⟨e, hj⟩ := ih (by omega)
      have hle := flSum_le hF (f := f') (n := k) (m := m) (b := b) (fun i hi => by
        rw [← (h i (by omega)).1]; exact (h i (by omega)).2.2) (by omega) hm
      have hs : Dyadic g (b + m + 1) (flSum G f k) := ⟨hj, by rw [e]; exact hle⟩
      have hx := (h k (by omega)).2.mono (show b ≤ b + m + 1 by omega)
      obtain ⟨r1, r2⟩ := (hs.add hx).re hG hg (by omega)
      refine ⟨?_, ?_⟩
      · rw [flSum, flSum, r1, e, (h k (by omega)).1]
      · rw [flSum]; exact r2.1
  obtain ⟨e, hj⟩ := key n le_rfl
  refine ⟨e, hj, ?_⟩
  rw [e]
  exact flSum_le hF (fun i hi => by rw [← (h i hi).1]; exact (h i hi).2.2) hn hm

theorem Dyadic.rc (h : Dyadic g b x) {k : ℕ} (hg : g ≤ k) (hb : b ≤ k) : Rc k (x : ℂ) := by
  obtain ⟨⟨j, hj⟩, hx⟩ := h
  rcases eq_or_ne j 0 with rfl | h0
  · left; rw [hj]; simp
  right
  rw [Complex.norm_real, Real.norm_eq_abs]
  refine ⟨?_, hx.trans (pow_le_pow_right₀ (by norm_num) hb)⟩
  rw [hj, abs_div, abs_of_pos (show (0 : ℝ) < 2 ^ g by positivity)]
  have h1 : (1 : ℝ) ≤ |(j : ℝ)| := by exact_mod_cast Int.one_le_abs h0
  have h2 : (2 : ℝ) ^ g ≤ 2 ^ k := pow_le_pow_right₀ (by norm_num) hg
  exact div_le_div₀ (abs_nonneg _) h1 (by positivity) h2

theorem re_nonneg {F : Fl} (hF : F.Ok) (h : 0 ≤ x) : 0 ≤ F.re x := by
  by_cases hq : ∃ q : ℚ, x = q
  · obtain ⟨q, rfl⟩ := hq
    rw [Fl.re_rat]
    have hq0 : 0 ≤ q := by exact_mod_cast h
    have := (hF.bounds hq0).1
    have h2 : 0 ≤ q * (1 - 1 / 2 ^ 53) := mul_nonneg hq0 (by norm_num)
    exact_mod_cast h2.trans this
  · rwa [Fl.re, dif_neg hq]

theorem flSum_nonneg {F : Fl} (hF : F.Ok) {f : ℕ → ℝ} {n : ℕ} (h : ∀ i < n, 0 ≤ f i) : 0 ≤ flSum F f n := by
  induction n with
  | zero => exact le_rfl
  | succ n ih =>
    rw [flSum]
    exact re_nonneg hF (add_nonneg (ih fun i hi => h i (by omega)) (h n (by omega)))

theorem Rc.sqrt {sq : ℝ → ℝ} (hsq : SqrtOk sq) {k : ℕ} (h : Rc k (x : ℂ)) (hx : 0 ≤ x) :
    Rc (k + 1) (sq x : ℂ) := by
  have h1 := hsq x hx
  rcases h with h | ⟨h2, h3⟩
  · left
    have : x = 0 := by exact_mod_cast h
    subst this
    rw [Real.sqrt_zero, sub_zero, zero_div] at h1
    exact_mod_cast abs_nonpos_iff.mp h1
  right
  rw [Complex.norm_real, Real.norm_eq_abs, abs_of_nonneg hx] at h2 h3
  rw [Complex.norm_real, Real.norm_eq_abs]
  have h0 : 0 ≤ Real.sqrt x := Real.sqrt_nonneg x
  have a1 : 1 / 2 ^ k ≤ Real.sqrt x := by
    refine Real.le_sqrt_of_sq_le (le_trans ?_ h2)
    have h4 : (1 / 2 ^ k : ℝ) ≤ 1 := by
      rw [div_le_one (by positivity)]; exact one_le_pow₀ (by norm_num)
    have h5 : (0 : ℝ) ≤ 1 / 2 ^ k := by positivity
    nlinarith
  have a2 : Real.sqrt x ≤ 2 ^ k := by
    rw [Real.sqrt_le_left (by positivity)]
    refine h3.trans ?_
    have : (1 : ℝ) ≤ 2 ^ k := one_le_pow₀ (by norm_num)
    nlinarith
  have b1 : |sq x| ≤ Real.sqrt x + Real.sqrt x / 2 ^ 53 := by
    have := abs_sub_abs_le_abs_sub (sq x) (Real.sqrt x)
    rw [abs_of_nonneg h0] at this
    linarith
  have b2 : Real.sqrt x - Real.sqrt x / 2 ^ 53 ≤ |sq x| := by
    have := abs_sub_abs_le_abs_sub (Real.sqrt x) (sq x)
    rw [abs_of_nonneg h0, abs_sub_comm] at this
    linarith
  have e : (1 / 2 ^ (k + 1) : ℝ) = 1 / 2 ^ k * (1 / 2) := by rw [pow_succ]; field_simp
  rw [e, pow_succ]
  constructor <;> linarith

end Dyadic

/-- A raw value: a multiple of `2^-100` of magnitude at most `2^100`.  Every float64 number between
`2^-48` and `2^100` in magnitude, and zero, is one. -/
abbrev RawOk (x : ℝ) : Prop := Dyadic 100 100 x

variable {G : Fl} {sq : ℝ → ℝ} {data : List (List ℂ)} {pop den j : ℕ}

theorem flMean_agree (hG : G.Ieee) (hp1 : 1 ≤ pop) (hp : pop ≤ 2 ^ 50)
    (h : ∀ i < pop, RawOk (entry data i j).re) :
    flMean G data pop j = flMean G.total data pop j ∧ Dyadic 202 152 (flMean G data pop j) := by
  obtain ⟨e, hd⟩ := flSum_agree hG (f := fun i => (entry data i j).re) (f' := fun i => (entry data i j).re)
    (m := 50) (fun i hi => ⟨rfl, h i hi⟩) hp le_rfl (by norm_num) (by norm_num)
  obtain ⟨e2, hd2⟩ := hd.div hG hp1 hp (by norm_num) (by norm_num)
  refine ⟨?_, hd2⟩
  rw [flMean, flMean, e2, e]

theorem dev_agree (hG : G.Ieee) (hp1 : 1 ≤ pop) (hp : pop ≤ 2 ^ 50)
    (h : ∀ i < pop, RawOk (entry data i j).re) {i : ℕ} (hi : RawOk (entry data i j).re) :
    G.re ((entry data i j).re - flMean G data pop j) =
      G.total.re ((entry data i j).re - flMean G.total data pop j) ∧
    Dyadic 202 154 (G.re ((entry data i j).re - flMean G data pop j)) := by
  obtain ⟨e, hd⟩ := flMean_agree hG hp1 hp h
  obtain ⟨e2, hd2⟩ := (((hi.fine (by norm_num)).mono (by norm_num)).sub hd).re hG (by norm_num) (by norm_num)
  refine ⟨?_, hd2⟩
  rw [e2, e]

theorem flStd_agree (hG : G.Ieee) (hsq : SqrtOk sq) (hp1 : 1 ≤ pop) (hp : pop ≤ 2 ^ 50) (hd1 : 1 ≤ den)
    (hd : den ≤ 2 ^ 50) (h : ∀ i < pop, RawOk (entry data i j).re) :
    flStd G sq data pop den j = flStd G.total sq data pop den j ∧
      Rc 507 (flStd G sq data pop den j : ℂ) := by
  obtain ⟨e, hd'⟩ := flSum_agree hG (g := 404) (b := 309) (m := 50)
    (f := fun i => G.re (G.re ((entry data i j).re - flMean G data pop j) ^ 2))
    (f' := fun i => G.total.re (G.total.re ((entry data i j).re - flMean G.total data pop j) ^ 2))
    (fun i hi => by
      obtain ⟨e, hx⟩ := dev_agree hG hp1 hp h (h i hi)
      obtain ⟨e2, hx2⟩ := hx.square.re hG (by norm_num) (by norm_num)
      refine ⟨?_, hx2⟩
      rw [e2, e]) hp le_rfl (by norm_num) (by norm_num)
  obtain ⟨e2, hd2⟩ := hd'.div hG hd1 hd (by norm_num) (by norm_num)
  refine ⟨?_, ?_⟩
  · rw [flStd, flStd, e2, e]
  · rw [flStd]
    refine (hd2.rc (k := 506) (by norm_num) (by norm_num)).sqrt hsq ?_
    rw [e2, e]
    have hF := hG.total_ok
    exact re_nonneg hF (div_nonneg (flSum_nonneg hF fun i _ => re_nonneg hF (sq_nonneg _)) (Nat.cast_nonneg _))

theorem flScore_agree (hG : G.Ieee) (hsq : SqrtOk sq) (hp1 : 1 ≤ pop) (hp : pop ≤ 2 ^ 50) (hd1 : 1 ≤ den)
    (hd : den ≤ 2 ^ 50) (h : ∀ i < pop, RawOk (entry data i j).re) {i : ℕ}
    (hi : RawOk (entry data i j).re) :
    flScore G sq data pop den i j = flScore G.total sq data pop den i j := by
  obtain ⟨e, hx⟩ := dev_agree hG hp1 hp h hi
  obtain ⟨e2, hs⟩ := flStd_agree hG hsq hp1 hp hd1 hd h
  have := ((hx.rc (k := 202) (by norm_num) (by norm_num)).div hs).agree G.agree_total (by norm_num)
  rw [flScore, flScore]
  have e3 : G.re (G.re ((entry data i j).re - flMean G data pop j) / flStd G sq data pop den j) =
      G.total.re (G.re ((entry data i j).re - flMean G data pop j) / flStd G sq data pop den j) := by
    rw [← Complex.ofReal_div, Fl.cx_ofReal, Fl.cx_ofReal] at this
    exact_mod_cast this
  rw [e3, e, e2]

/-- **C67 (normalisation).** For tables of ordinary numbers the normalisation of the toy programs meets no
underflow and no overflow: double precision gives what a rounding with unbounded exponents gives. -/
theorem C67_normalise (hG : G.Ieee) (hsq : SqrtOk sq) {numFeature numData : ℕ} {sel : ℕ → Bool}
    (hr : ∀ i < pop, ∀ j < numFeature, i < data.length ∧ j < (data.getD i []).length)
    (hs : ∀ i < numData, ∀ j < numFeature, sel j = true →
      i < data.length ∧ j < (data.getD i []).length)
    (hp1 : 1 ≤ pop) (hp : pop ≤ 2 ^ 50) (hd1 : 1 ≤ den) (hd : den ≤ 2 ^ 50)
    (h : ∀ i, i < pop ∨ i < numData → ∀ j < numFeature, sel j = true → RawOk (entry data i j).re) :
    normalise G sq pop den numFeature numData sel data =
      normalise G.total sq pop den numFeature numData sel data := by
  obtain ⟨out, e, ho⟩ := normalise_spec G sq (den := den) hr hs
  obtain ⟨out', e', ho'⟩ := normalise_spec G.total sq (den := den) hr hs
  rw [e, e']
  congr 1
  refine List.ext_getElem (ho.len.trans ho'.len.symm) fun i hi hi' => ?_
  have hrow : ∀ (l : List (List ℂ)) (hi : i < l.length), l[i] = l.getD i [] := fun l hi =>
    (List.getD_eq_getElem _ _ hi).symm
  rw [hrow out hi, hrow out' hi']
  refine List.ext_getElem ((ho.rows i).trans (ho'.rows i).symm) fun k hk hk' => ?_
  have hent : ∀ (l : List (List ℂ)) (hk : k < (l.getD i []).length), (l.getD i [])[k] = entry l i k :=
    fun l hk => (List.getD_eq_getElem _ _ hk).symm
  rw [hent out hk, hent out' hk']
  by_cases hc : i < numData ∧ k < numFeature ∧ sel k = true
  · obtain ⟨c1, c2, c3⟩ := hc
    rw [ho.vals i c1 k c2 c3, ho'.vals i c1 k c2 c3,
      flScore_agree hG hsq hp1 hp hd1 hd (fun i hi => h i (Or.inl hi) k c2 c3) (h i (Or.inr c1) k c2 c3)]
  · rw [ho.keep i k hc, ho'.keep i k hc]

end Lr

end MK
