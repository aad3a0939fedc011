import Verif.WordSpec

/-!
# The floating-point quotient
-/

namespace MK.Word

/-- The exact quotient `Σ y_i / q_i`. -/
def equot (l : List (ℕ × ℕ)) : ℚ := (l.map fun p => (p.1 / p.2 : ℚ)).sum

theorem Fl.Ok.bounds {F : Fl} (h : F.Ok) {x : ℚ} (hx : 0 ≤ x) :
    x * (1 - 1 / 2 ^ 53) ≤ F.rnd x ∧ F.rnd x ≤ x * (1 + 1 / 2 ^ 53) := by
  have := abs_le.mp (h.rel x)
  rw [abs_of_nonneg hx] at this
  constructor <;> linarith [this.1, this.2]

theorem quot_bounds {e a y q yr qr d t : ℚ} (he0 : 0 < e) (he1 : e ≤ 1 / 100) (hq : 0 < q)
    (ha0 : 0 ≤ a) (ha1 : a < 1) (hya : y = a * q)
    (y1 : y * (1 - e) ≤ yr) (y2 : yr ≤ y * (1 + e)) (q1 : q * (1 - e) ≤ qr) (q2 : qr ≤ q * (1 + e))
    (hd0 : 0 ≤ d) (hdm : d * qr = yr) (t1 : d * (1 - e) ≤ t) (t2 : t ≤ d * (1 + e)) :
    0 ≤ t ∧ |t - a| ≤ 4 * e := by
  have h1 : 0 < 1 - e := by linarith
  have hd2 : d * (1 - e) ≤ a * (1 + e) := by
    have : (d * (1 - e)) * q ≤ (a * (1 + e)) * q := by
      calc (d * (1 - e)) * q = d * (q * (1 - e)) := by ring
        _ ≤ d * qr := mul_le_mul_of_nonneg_left q1 hd0
        _ = yr := hdm
        _ ≤ y * (1 + e) := y2
        _ = (a * (1 + e)) * q := by rw [hya]; ring
    exact le_of_mul_le_mul_right this hq
  have hd1 : a * (1 - e) ≤ d * (1 + e) := by
    have : (a * (1 - e)) * q ≤ (d * (1 + e)) * q := by
      calc (a * (1 - e)) * q = y * (1 - e) := by rw [hya]; ring
        _ ≤ yr := y1
        _ = d * qr := hdm.symm
        _ ≤ d * (q * (1 + e)) := mul_le_mul_of_nonneg_left q2 hd0
        _ = (d * (1 + e)) * q := by ring
    exact le_of_mul_le_mul_right this hq
  have hae : a * e ≤ e := by nlinarith
  have hae0 : 0 ≤ a * e := mul_nonneg ha0 he0.le
  have hd3 : d ≤ 1.1 := by nlinarith
  have hde : d * e ≤ 1.1 * e := mul_le_mul_of_nonneg_right hd3 he0.le
  have hde0 : 0 ≤ d * e := mul_nonneg hd0 he0.le
  refine ⟨le_trans (mul_nonneg hd0 h1.le) t1, ?_⟩
  rw [abs_le]
  constructor <;> nlinarith

/-- One rounded quotient. -/
theorem term_bounds {F : Fl} (h : F.Ok) {y q : ℕ} (hyq : y < q) :
    0 ≤ F.rnd (F.rnd y / F.rnd q) ∧
      |F.rnd (F.rnd y / F.rnd q) - (y : ℚ) / q| ≤ 4 / 2 ^ 53 := by
  have hq : (0 : ℚ) < q := by exact_mod_cast lt_of_le_of_lt (Nat.zero_le y) hyq
  have hy : (0 : ℚ) ≤ y := Nat.cast_nonneg y
  obtain ⟨y1, y2⟩ := Fl.Ok.bounds h hy
  obtain ⟨q1, q2⟩ := Fl.Ok.bounds h hq.le
  have hqr : 0 < F.rnd q := lt_of_lt_of_le (mul_pos hq (by norm_num)) q1
  have hyr : 0 ≤ F.rnd y := le_trans (mul_nonneg hy (by norm_num)) y1
  obtain ⟨t1, t2⟩ := Fl.Ok.bounds h (div_nonneg hyr hqr.le)
  have h4 : (4 : ℚ) / 2 ^ 53 = 4 * (1 / 2 ^ 53) := by norm_num
  rw [h4]
  exact quot_bounds (by norm_num) (by norm_num) hq (div_nonneg hy hq.le)
    (by rw [div_lt_one hq]; exact_mod_cast hyq) (div_mul_cancel₀ _ hq.ne').symm y1 y2 q1 q2
    (div_nonneg hyr hqr.le) (div_mul_cancel₀ _ hqr.ne') t1 t2

theorem equot_nonneg (l : List (ℕ × ℕ)) : 0 ≤ equot l := by
  unfold equot
  refine List.sum_nonneg fun x hx => ?_
  obtain ⟨p, _, rfl⟩ := List.mem_map.mp hx
  positivity

theorem equot_le (l : List (ℕ × ℕ)) (h : ∀ p ∈ l, p.1 < p.2) : equot l ≤ l.length := by
  unfold equot
  induction l with
  | nil => simp
  | cons p l ih =>
    have hp := h p (by simp)
    have := ih fun p hp => h p (by simp [hp])
    have hq : (0 : ℚ) < p.2 := by exact_mod_cast lt_of_le_of_lt (Nat.zero_le _) hp
    have : (p.1 : ℚ) / p.2 ≤ 1 := by rw [div_le_one hq]; exact_mod_cast hp.le
    simp only [List.map_cons, List.sum_cons, List.length_cons]
    push_cast
    linarith

theorem equot_lt {l : List (ℕ × ℕ)} (h : ∀ p ∈ l, p.1 < p.2) (hl : l ≠ []) :
    equot l < l.length := by
  cases l with
  | nil => exact absurd rfl hl
  | cons p l =>
    have hp := h p (by simp)
    have := equot_le l fun p hp => h p (by simp [hp])
    have hq : (0 : ℚ) < p.2 := by exact_mod_cast lt_of_le_of_lt (Nat.zero_le _) hp
    have : (p.1 : ℚ) / p.2 < 1 := by rw [div_lt_one hq]; exact_mod_cast hp
    unfold equot at *
    simp only [List.map_cons, List.sum_cons, List.length_cons]
    push_cast
    linarith

theorem equot_append (a b : List (ℕ × ℕ)) : equot (a ++ b) = equot a + equot b := by
  simp [equot]

/-- The floating-point sum is within `2^-42` of the exact one. -/
theorem fsum_close {F : Fl} (hF : F.Ok) (l : List (ℕ × ℕ)) (hl : l.length ≤ 32)
    (h : ∀ p ∈ l, p.1 < p.2) :
    0 ≤ l.foldl (fun vi p => fstep F vi p.1 p.2) 0 ∧
      |l.foldl (fun vi p => fstep F vi p.1 p.2) 0 - equot l| ≤ 64 * l.length / 2 ^ 53 := by
  induction l using List.reverseRecOn with
  | nil => simp [equot]
  | append_singleton l p ih =>
    rw [List.length_append] at hl
    simp only [List.length_cons, List.length_nil] at hl
    obtain ⟨i1, i2⟩ := ih (by omega) fun p hp => h p (by simp [hp])
    obtain ⟨t1, t2⟩ := term_bounds hF (h p (by simp))
    have hp2 := h p (by simp)
    have hle := equot_le l fun p hp => h p (by simp [hp])
    have h0 := equot_nonneg l
    rw [List.foldl_append, equot_append]
    simp only [List.foldl_cons, List.foldl_nil, List.length_append, List.length_cons, List.length_nil]
    set v := l.foldl (fun vi p => fstep F vi p.1 p.2) 0
    set t := F.rnd (F.rnd p.1 / F.rnd p.2)
    obtain ⟨s1, s2⟩ := Fl.Ok.bounds hF (add_nonneg i1 t1)
    have hx : equot [p] = (p.1 : ℚ) / p.2 := by simp [equot]
    have hx0 : (0 : ℚ) ≤ (p.1 : ℚ) / p.2 := by positivity
    have hq : (0 : ℚ) < p.2 := by exact_mod_cast lt_of_le_of_lt (Nat.zero_le _) hp2
    have hx1 : (p.1 : ℚ) / p.2 ≤ 1 := by rw [div_le_one hq]; exact_mod_cast hp2.le
    rw [hx]
    set x : ℚ := (p.1 : ℚ) / p.2
    have hn : (l.length : ℚ) ≤ 31 := by exact_mod_cast (by omega : l.length ≤ 31)
    have hn0 : (0 : ℚ) ≤ l.length := Nat.cast_nonneg _
    set n : ℚ := (l.length : ℚ)
    set u := equot l
    rw [abs_le] at i2 t2
    show 0 ≤ F.rnd (v + t) ∧ |F.rnd (v + t) - (u + x)| ≤ _
    have hw : v + t ≤ 40 := by
      have : 64 * n / 2 ^ 53 ≤ 1 := by rw [div_le_one (by norm_num)]; nlinarith
      have : (4 : ℚ) / 2 ^ 53 ≤ 1 := by norm_num
      linarith [i2.2, t2.2]
    have hw0 : 0 ≤ v + t := add_nonneg i1 t1
    refine ⟨le_trans (mul_nonneg hw0 (by norm_num)) s1, ?_⟩
    rw [abs_le]
    push_cast
    constructor
    · have : (v + t) * (1 / 2 ^ 53) ≤ 40 / 2 ^ 53 := by nlinarith
      have e : 64 * ((l.length : ℚ) + 1) / 2 ^ 53 = 64 * n / 2 ^ 53 + 64 / 2 ^ 53 := by
        show 64 * (n + 1) / 2 ^ 53 = _
        ring
      rw [e]
      have : (v + t) * (1 - 1 / 2 ^ 53) = v + t - (v + t) * (1 / 2 ^ 53) := by ring
      have : (40 : ℚ) / 2 ^ 53 + 4 / 2 ^ 53 ≤ 64 / 2 ^ 53 := by norm_num
      linarith [i2.1, t2.1]
    · have : (v + t) * (1 / 2 ^ 53) ≤ 40 / 2 ^ 53 := by nlinarith
      have e : 64 * ((l.length : ℚ) + 1) / 2 ^ 53 = 64 * n / 2 ^ 53 + 64 / 2 ^ 53 := by
        show 64 * (n + 1) / 2 ^ 53 = _
        ring
      rw [e]
      have : (v + t) * (1 + 1 / 2 ^ 53) = v + t + (v + t) * (1 / 2 ^ 53) := by ring
      have : (40 : ℚ) / 2 ^ 53 + 4 / 2 ^ 53 ≤ 64 / 2 ^ 53 := by norm_num
      linarith [i2.2, t2.2]

/-- **C48.** For at most 32 words below their moduli, the quotient computed with rounded
conversions, divisions and additions (any rounding with relative error `2^-53`) differs from
the exact floor by at most one; it is exact unless the exact sum lies within `2^-42` of an
integer; and it never exceeds the number of words, the largest index of `vtimesqmodp`. -/
theorem C48_quotient {F : Fl} (hF : F.Ok) (l : List (ℕ × ℕ)) (hl : l.length ≤ 32)
    (h : ∀ p ∈ l, p.1 < p.2) :
    |(fquot F l : ℤ) - ⌊equot l⌋| ≤ 1 ∧ fquot F l ≤ l.length ∧
      (1 / 2 ^ 42 ≤ Int.fract (equot l) → Int.fract (equot l) < 1 - 1 / 2 ^ 42 →
        (fquot F l : ℤ) = ⌊equot l⌋) := by
  obtain ⟨h0, h1⟩ := fsum_close hF l hl h
  unfold fquot
  set v := l.foldl (fun vi p => fstep F vi p.1 p.2) 0 with hv
  have hb : (64 * l.length / 2 ^ 53 : ℚ) ≤ 1 / 2 ^ 42 := by
    have : (l.length : ℚ) ≤ 32 := by exact_mod_cast hl
    rw [div_le_div_iff₀ (by norm_num) (by norm_num)]
    nlinarith
  have h2 := abs_le.mp (h1.trans hb)
  have hcast : ((⌊v⌋₊ : ℕ) : ℤ) = ⌊v⌋ := Int.natCast_floor_eq_floor h0
  rw [hcast]
  have f1 := Int.floor_le v
  have f2 := Int.lt_floor_add_one v
  have g1 := Int.floor_le (equot l)
  have g2 := Int.lt_floor_add_one (equot l)
  have hs : (1 : ℚ) / 2 ^ 42 < 1 := by norm_num
  refine ⟨?_, ?_, fun a b => ?_⟩
  · rw [abs_le]
    constructor
    · have : (⌊equot l⌋ : ℚ) < ⌊v⌋ + 2 := by linarith [h2.1]
      have : ⌊equot l⌋ < ⌊v⌋ + 2 := by exact_mod_cast this
      omega
    · have : (⌊v⌋ : ℚ) < ⌊equot l⌋ + 2 := by linarith [h2.2]
      have : ⌊v⌋ < ⌊equot l⌋ + 2 := by exact_mod_cast this
      omega
  · have hle := equot_le l h
    have : (⌊v⌋ : ℚ) < l.length + 1 := by linarith [h2.2]
    have h3 : ⌊v⌋ < (l.length : ℤ) + 1 := by exact_mod_cast this
    omega
  · have hf : Int.fract (equot l) = equot l - ⌊equot l⌋ := rfl
    rw [hf] at a b
    rw [Int.floor_eq_iff]
    constructor
    · linarith [h2.1]
    · linarith [h2.2]

/-- The rounded computation satisfies what the key-switching theorems assume of it. -/
theorem C48_floatOK {F : Fl} (hF : F.Ok) : FloatOK (fquot F) := fun l hl h =>
  (C48_quotient hF l hl fun p hp => (h p hp).1).1

end MK.Word
