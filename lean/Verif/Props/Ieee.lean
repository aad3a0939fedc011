import Verif.Props.Exact
import Verif.Props.LrLevels
import Verif.Props.FlConst

/-!
# float64 with its limited exponent range

`Fl.Ok` asks for a relative error on all rationals, which IEEE-754 doubles give on their normal range
only.  Here: which numbers the programs round, and that a rounding which is good on the normal range only
(`Fl.Ieee`) gives the same scales and constants as one that is good everywhere.
-/

noncomputable section

namespace MK

/-- `x` is zero or in the normal range of float64. -/
def Normal (x : ℚ) : Prop := x = 0 ∨ (1 / 2 ^ 1022 ≤ |x| ∧ |x| ≤ 2 ^ 1023)

/-- The two roundings agree on the normal range. -/
def Fl.Agree (G F : Fl) : Prop := ∀ x, Normal x → G.rnd x = F.rnd x

/-- `x` is a multiple of `2^-g`. -/
def OnGrid (g : ℕ) (x : ℚ) : Prop := ∃ k : ℤ, x = k / 2 ^ g

/-- What IEEE-754 double precision guarantees: nothing is said about subnormal results and overflow. -/
structure Fl.Ieee (G : Fl) : Prop where
  rel : ∀ x, Normal x → |G.rnd x - x| ≤ |x| / 2 ^ 53
  int : ∀ n : ℤ, |n| ≤ 2 ^ 53 → G.rnd n = n
  neg : ∀ x, Normal x → G.rnd (-x) = - G.rnd x
  grid : ∀ x, Normal x → ∀ g, OnGrid g x → OnGrid g (G.rnd x)
  sig : ∀ x, Normal x → ∀ m : ℕ, 1 / 2 ^ m ≤ |x| → OnGrid (m + 52) (G.rnd x)

open Classical in
/-- The rounding continued by the identity outside the normal range. -/
def Fl.total (G : Fl) : Fl := ⟨fun x => if Normal x then G.rnd x else x⟩

theorem Normal.neg {x : ℚ} (h : Normal x) : Normal (-x) := by
  unfold Normal at *
  rwa [neg_eq_zero, abs_neg]

theorem Normal.int {n : ℤ} (h : |n| ≤ 2 ^ 53) : Normal (n : ℚ) := by
  rcases eq_or_ne n 0 with rfl | hn
  · left; simp
  right
  have h1 : (1 : ℚ) ≤ |(n : ℚ)| := by exact_mod_cast Int.one_le_abs hn
  have h2 : |(n : ℚ)| ≤ 2 ^ 53 := by exact_mod_cast h
  have h3 : (1 / 2 ^ 1022 : ℚ) ≤ 1 := by
    rw [div_le_one (by positivity)]; exact one_le_pow₀ (by norm_num)
  have h4 : (2 : ℚ) ^ 53 ≤ 2 ^ 1023 := pow_le_pow_right₀ (by norm_num) (by norm_num)
  exact ⟨h3.trans h1, h2.trans h4⟩

theorem Fl.Ieee.total_ok {G : Fl} (h : G.Ieee) : G.total.Ok where
  rel x := by
    simp only [Fl.total]
    split
    · exact h.rel x ‹_›
    · rw [sub_self, abs_zero]; positivity
  int n hn := by
    simp only [Fl.total]
    rw [if_pos (Normal.int hn)]
    exact h.int n hn
  neg x := by
    simp only [Fl.total]
    by_cases hx : Normal x
    · rw [if_pos hx, if_pos hx.neg]; exact h.neg x hx
    · rw [if_neg hx, if_neg fun h => hx (by simpa using h.neg)]

theorem Fl.agree_total (G : Fl) : G.Agree G.total := fun x hx => by
  simp only [Fl.total]; rw [if_pos hx]

theorem Fl.Agree.refl (F : Fl) : F.Agree F := fun _ _ => rfl

namespace Lr

/-! ## Magnitudes -/

/-- `2^-k ≤ x ≤ 2^k` -/
def Rng (k : ℕ) (x : ℚ) : Prop := 1 / 2 ^ k ≤ x ∧ x ≤ 2 ^ k

variable {F G : Fl} {j k : ℕ} {x y : ℚ}

theorem Rng.pos (h : Rng k x) : 0 < x := lt_of_lt_of_le (by positivity) h.1

theorem Rng.mono (h : Rng j x) (hjk : j ≤ k) : Rng k x :=
  ⟨(one_div_le_one_div_of_le (by positivity) (pow_le_pow_right₀ (by norm_num) hjk)).trans h.1,
    h.2.trans (pow_le_pow_right₀ (by norm_num) hjk)⟩

theorem Rng.mul (h : Rng j x) (g : Rng k y) : Rng (j + k) (x * y) := by
  constructor
  · have e : (1 / 2 ^ (j + k) : ℚ) = 1 / 2 ^ j * (1 / 2 ^ k) := by rw [pow_add]; field_simp
    rw [e]
    exact mul_le_mul h.1 g.1 (by positivity) h.pos.le
  · rw [pow_add]
    exact mul_le_mul h.2 g.2 g.pos.le (by positivity)

theorem Rng.inv (h : Rng k x) : Rng k x⁻¹ := by
  constructor
  · rw [one_div]; exact inv_anti₀ h.pos h.2
  · have := inv_anti₀ (by positivity) h.1
    simpa using this

theorem Rng.div (h : Rng j x) (g : Rng k y) : Rng (j + k) (x / y) := by
  rw [div_eq_mul_inv]; exact h.mul g.inv

theorem Rng.rnd (hF : F.Ok) (h : Rng k x) : Rng (k + 1) (F.rnd x) := by
  obtain ⟨h1, h2⟩ := hF.bounds h.pos.le
  constructor
  · have : x * (1 / 2) ≤ x * (1 - 1 / 2 ^ 53) := mul_le_mul_of_nonneg_left (by norm_num) h.pos.le
    have e : (1 / 2 ^ (k + 1) : ℚ) = 1 / 2 ^ k * (1 / 2) := by rw [pow_succ]; field_simp
    rw [e]
    have := mul_le_mul_of_nonneg_right h.1 (show (0 : ℚ) ≤ 1 / 2 by norm_num)
    linarith
  · have : x * (1 + 1 / 2 ^ 53) ≤ x * 2 := mul_le_mul_of_nonneg_left (by norm_num) h.pos.le
    rw [pow_succ]
    have := h.2
    linarith

theorem Rng.normal (h : Rng k x) (hk : k ≤ 1022) : Normal x := by
  right
  rw [abs_of_pos h.pos]
  exact ⟨(h.mono hk).1, (h.mono (hk.trans (by norm_num : 1022 ≤ 1023))).2⟩

theorem Rng.agree (h : Rng k x) (hG : G.Agree F) (hk : k ≤ 1022) : G.rnd x = F.rnd x := hG x (h.normal hk)

theorem Rng.nat {q : ℕ} (h0 : 0 < q) (h : q ≤ 2 ^ 64) : Rng 64 (q : ℚ) := by
  have h1 : (1 : ℚ) ≤ q := by exact_mod_cast h0
  have h2 : (q : ℚ) ≤ 2 ^ 64 := by exact_mod_cast h
  exact ⟨le_trans (by norm_num) h1, h2⟩

/-- The scales that a product goes through. -/
theorem same_seq (hF : F.Ok) (hG : G.Agree F) {q : ℕ → ℕ} {l : ℕ} {s t : ℚ} (hs : Rng 66 s) (ht : Rng 66 t)
    (h0 : Rng 64 (q l : ℚ)) (h1 : Rng 64 (q (l - 1) : ℚ)) :
    G.rnd (s * t) = F.rnd (s * t) ∧ prodScale G q l s t = prodScale F q l s t ∧
      scaleSeq G q l (G.rnd (s * t)) 2 = scaleSeq F q l (F.rnd (s * t)) 2 := by
  have a := hs.mul ht
  have ea := a.agree hG (by norm_num)
  have b := (a.rnd hF).div (h0.rnd hF)
  have eb := b.agree hG (by norm_num)
  have e0 := h0.agree hG (by norm_num)
  have e1 := h1.agree hG (by norm_num)
  have c := (b.rnd hF).div (h1.rnd hF)
  have ec := c.agree hG (by norm_num)
  refine ⟨ea, ?_, ?_⟩
  · show G.rnd (G.rnd (s * t) / G.rnd (q (l - 0))) = F.rnd (F.rnd (s * t) / F.rnd (q (l - 0)))
    rw [Nat.sub_zero, ea, e0, eb]
  · show G.rnd (G.rnd (G.rnd (s * t) / G.rnd (q (l - 0))) / G.rnd (q (l - 1))) =
      F.rnd (F.rnd (F.rnd (s * t) / F.rnd (q (l - 0))) / F.rnd (q (l - 1)))
    rw [Nat.sub_zero, ea, e0, eb, e1, ec]

theorem same_by (hF : F.Ok) (hG : G.Agree F) {q : ℕ → ℕ} {l : ℕ} {S s t : ℚ} (hs : Rng 66 s) (ht : Rng 66 t)
    (h0 : Rng 64 (q l : ℚ)) (h1 : Rng 64 (q (l - 1) : ℚ)) (h : RescaleBy F q S (F.rnd (s * t)) l 1) :
    RescaleBy G q S (G.rnd (s * t)) l 1 := by
  obtain ⟨ea, eb, ec⟩ := same_seq hF hG hs ht h0 h1
  rcases h with ⟨-, h⟩ | ⟨a, b, c, d⟩
  · omega
  · refine Or.inr ⟨a, by rw [ea]; exact b, c, d.le, fun m hm => ?_, ?_⟩
    · obtain rfl : m = 0 := by omega
      have := d.keep 0 (by norm_num)
      exact this.trans (le_of_eq eb.symm)
    · exact lt_of_eq_of_lt ec d.stop

theorem same_align (hG : G.Agree F) {s t : ℚ} (hs : Rng 66 s) (ht : Rng 66 t) :
    alignInt G s t = alignInt F s t := by
  unfold alignInt
  rw [(ht.div hs).agree hG (by norm_num)]

/-! ## The exact operations -/

variable {C : Ctx}

/-- The parameters with another rounding. -/
def _root_.MK.CPar.withFl (prm : CPar C) (G : Fl) : CPar C := { prm with fl := G }

/-- The operations with a check of the result. -/
def guardHE {α P : Type} (p : α → Bool) (h : HE Option α P) : HE Option α P where
  mulRelin same a b := (h.mulRelin same a b).filter p
  mulPtxt a b := (h.mulPtxt a b).filter p
  add a b := (h.add a b).filter p
  rotate a k := (h.rotate a k).filter p

theorem guard_sim {α β P Q : Type} {p : α → Bool} {h : HE Option α P} {g : HE Option β Q}
    {R : α → β → Prop} {RP : P → Q → Prop} (H : HESim optRel h g R RP) (hp : ∀ a b, R a b → p a = true) :
    HESim optRel (guardHE p h) g R RP := by
  have key : ∀ {o : Option α} {o' : Option β}, optRel.rel R o o' → optRel.rel R (o.filter p) o' := by
    intro o o' ho b hb
    obtain ⟨a, e, hr⟩ := ho b hb
    exact ⟨a, by rw [e, Option.filter_some, if_pos (hp a b hr)], hr⟩
  exact ⟨fun a b => key (H.mul a b), fun a => key (H.sq a), fun a b => key (H.mulPtxt a b),
    fun a b => key (H.add a b), fun k a => key (H.rotate k a)⟩

variable {prm : CPar C} {r : ℚ} {K : ℕ} {rk : String → RelinKey C} {u : SwKey C}
  {rrk : ℕ → String → RotKey C} {ra : ℕ → SwKey C}

/-- Level and scale exponent of an exact value. -/
def XMeta (prm : CPar C) (r : ℚ) (K : ℕ) (x : XVal C) (m : ℕ × ℕ) : Prop :=
  x.lvl = m.1 ∧ m.1 < C.nQ ∧ Near prm.scale r m.2 x.scale ∧ m.2 ≤ K

theorem exact_meta (H : Chain prm r K) (hC : C.Good) (hF : prm.fl.Ok) :
    HESim optRel (exactHE prm rk u rrk ra) (metaHE K) (XMeta prm r K) (fun p _ => p.2 = prm.scale) := by
  have B := boundHE_sim (n := 1) H hC hF 0 0 0 0
  have X := exact_bound prm 1 0 0 0 0 rk u rrk ra
  have mk : ∀ {x : XVal C} {m : ℕ × ℕ}, XMeta prm r K x m →
      ∃ v : AVal 1, MetaX x v ∧ HasMeta C prm.scale r v m := fun {x m} h =>
    ⟨⟨0, x.lvl, x.scale, 0⟩, ⟨rfl, rfl⟩, h.1, h.2.1, h.2.2.1⟩
  have fin : ∀ {o : Option (XVal C)} {o' : Option (AVal 1)} {o'' : Option (ℕ × ℕ)},
      optRel.rel MetaX o o' → optRel.rel (HasMeta C prm.scale r) o' o'' →
      (∀ m, o'' = some m → m.2 ≤ K) → optRel.rel (XMeta prm r K) o o'' := by
    intro o o' o'' h1 h2 h3 m hm
    obtain ⟨v, e1, m1, m2, m3⟩ := h2 m hm
    obtain ⟨x, e2, n1, n2⟩ := h1 v e1
    exact ⟨x, e2, n1.trans m1, m2, by rw [n2]; exact m3, h3 m hm⟩
  have kmul : ∀ (same : Bool) (a b m : ℕ × ℕ), (metaHE K).mulRelin same a b = some m → m.2 ≤ K := by
    intro same a b m hm
    simp only [metaHE] at hm
    split at hm
    · cases hm; omega
    · cases hm
  constructor
  · intro a b a' b' ha hb
    obtain ⟨v, x1, y1⟩ := mk ha
    obtain ⟨w, x2, y2⟩ := mk hb
    exact fin (X.mul x1 x2) (B.mul y1 y2) (kmul _ _ _)
  · intro a a' ha
    obtain ⟨v, x1, y1⟩ := mk ha
    exact fin (X.sq x1) (B.sq y1) (kmul _ _ _)
  · intro a a' p p' ha hp
    obtain ⟨v, x1, y1⟩ := mk ha
    refine fin (X.mulPtxt (p' := ⟨0, 0⟩) x1 hp) (B.mulPtxt y1 trivial) fun m hm => ?_
    simp only [metaHE] at hm
    split at hm
    · cases hm; omega
    · cases hm
  · intro a b a' b' ha hb
    obtain ⟨v, x1, y1⟩ := mk ha
    obtain ⟨w, x2, y2⟩ := mk hb
    refine fin (X.add x1 x2) (B.add y1 y2) fun m hm => ?_
    simp only [metaHE] at hm
    split at hm
    · cases hm; exact max_le ha.2.2.2 hb.2.2.2
    · cases hm
  · intro a a' k ha
    obtain ⟨v, x1, y1⟩ := mk ha
    refine fin (X.rotate k x1) (B.rotate k y1) fun m hm => ?_
    simp only [metaHE] at hm
    cases hm
    exact ha.2.2.2

open Classical in
/-- Level and scale that float64 handles. -/
def scOk (C : Ctx) (x : XVal C) : Bool := decide (x.lvl < C.nQ ∧ Rng 66 x.scale)

theorem XMeta.sc (H : Chain prm r K) (hs : prm.scale ≤ 2 ^ 64) {x : XVal C} {m : ℕ × ℕ}
    (h : XMeta prm r K x m) : scOk C x = true := by
  obtain ⟨h1, h2, ⟨h3, h4, h5⟩, h6⟩ := h
  have hp := H.le_three_halves h6
  have h16 := H.scale
  simp only [scOk, decide_eq_true_eq]
  refine ⟨h1 ▸ h2, ?_, ?_⟩
  · have : x.scale * r ^ m.2 ≤ x.scale * (3 / 2) := mul_le_mul_of_nonneg_left hp h3.le
    have h1 : (1 : ℚ) ≤ x.scale := by linarith
    exact le_trans (by norm_num) h1
  · have : prm.scale * r ^ m.2 ≤ prm.scale * (3 / 2) := mul_le_mul_of_nonneg_left hp (by linarith)
    have : (2 : ℚ) ^ 66 = 4 * 2 ^ 64 := by norm_num
    linarith

/-- The rounding does what the rounding of the parameters does in the evaluator: it is that rounding, or
agrees with it on the normal range, and the parameters are machine words. -/
def SameOps (prm : CPar C) (G : Fl) : Prop :=
  G = prm.fl ∨ (G.Agree prm.fl ∧ (∀ i < C.nQ, C.q i ≤ 2 ^ 64) ∧ prm.scale ≤ 2 ^ 64)

theorem guard_same (hC : C.Good) (hF : prm.fl.Ok) (hG : G.Agree prm.fl) (hq : ∀ i < C.nQ, C.q i ≤ 2 ^ 64)
    (hs : Rng 66 prm.scale) :
    HESim optRel (exactHE (prm.withFl G) rk u rrk ra) (guardHE (scOk C) (exactHE prm rk u rrk ra))
      (fun x y => x = y ∧ scOk C y = true) (fun p p' => p = p' ∧ p'.2 = prm.scale) := by
  have fin : ∀ {o o' : Option (XVal C)}, (∀ x, o' = some x → o = some x) →
      optRel.rel (fun x y => x = y ∧ scOk C y = true) o (o'.filter (scOk C)) := by
    intro o o' h x hx
    rw [Option.filter_eq_some_iff] at hx
    exact ⟨x, h x hx.1, rfl, hx.2⟩
  have q64 : ∀ {l : ℕ}, l < C.nQ → Rng 64 (C.q l : ℚ) := fun {l} hl => Rng.nat (hC.posQ l) (hq l hl)
  have hmul : ∀ {same : Bool} {a b : XVal C}, scOk C a = true → scOk C b = true →
      optRel.rel (fun x y => x = y ∧ scOk C y = true)
        ((exactHE (prm.withFl G) rk u rrk ra).mulRelin same a b)
        ((guardHE (scOk C) (exactHE prm rk u rrk ra)).mulRelin same a b) := by
    intro same a b ha hb
    refine fin fun x hx => ?_
    simp only [scOk, decide_eq_true_eq] at ha hb
    simp only [exactHE, CPar.withFl] at hx ⊢
    split at hx
    swap
    · cases hx
    rename_i hby
    cases hx
    have hl : min a.lvl b.lvl < C.nQ := lt_of_le_of_lt (min_le_left _ _) ha.1
    have h0 := q64 hl
    have h1 := q64 (lt_of_le_of_lt (Nat.sub_le (min a.lvl b.lvl) 1) hl)
    refine (if_pos (same_by hF hG ha.2 hb.2 h0 h1 hby)).trans ?_
    rw [(same_seq hF hG ha.2 hb.2 h0 h1).2.1]
  constructor
  · rintro a b a' b' ⟨rfl, ha⟩ ⟨rfl, hb⟩
    exact hmul ha hb
  · rintro a a' ⟨rfl, ha⟩
    exact hmul ha ha
  · rintro a a' p p' ⟨rfl, ha⟩ ⟨rfl, hp⟩
    refine fin fun x hx => ?_
    simp only [scOk, decide_eq_true_eq] at ha
    simp only [exactHE, CPar.withFl] at hx ⊢
    split at hx
    swap
    · cases hx
    rename_i hby
    cases hx
    have h0 := q64 ha.1
    have h1 := q64 (lt_of_le_of_lt (Nat.sub_le a.lvl 1) ha.1)
    have hp' : Rng 66 p.2 := by rw [hp]; exact hs
    refine (if_pos (same_by hF hG ha.2 hp' h0 h1 hby)).trans ?_
    rw [(same_seq hF hG ha.2 hp' h0 h1).2.1]
  · rintro a b a' b' ⟨rfl, ha⟩ ⟨rfl, hb⟩
    refine fin fun x hx => ?_
    simp only [scOk, decide_eq_true_eq] at ha hb
    simp only [exactHE, CPar.withFl] at hx ⊢
    split at hx
    swap
    · cases hx
    rename_i hal
    cases hx
    refine if_pos ?_
    rw [same_align hG ha.2 hb.2, same_align hG hb.2 ha.2]
    exact hal
  · rintro a a' k ⟨rfl, ha⟩
    exact fin fun x hx => hx

/-! ## The constants -/

/-- `z = 0` or `2^-k ≤ ‖z‖ ≤ 2^k` -/
def Rc (k : ℕ) (z : ℂ) : Prop := z = 0 ∨ (1 / 2 ^ k ≤ ‖z‖ ∧ ‖z‖ ≤ 2 ^ k)

section Rc

variable {z w : ℂ}

theorem Rc.mono (h : Rc j z) (hjk : j ≤ k) : Rc k z := by
  rcases h with h | ⟨h1, h2⟩
  · exact Or.inl h
  · exact Or.inr ⟨(one_div_le_one_div_of_le (by positivity) (pow_le_pow_right₀ (by norm_num) hjk)).trans h1,
      h2.trans (pow_le_pow_right₀ (by norm_num) hjk)⟩

theorem Rc.mul (h : Rc j z) (g : Rc k w) : Rc (j + k) (z * w) := by
  rcases h with rfl | ⟨h1, h2⟩
  · left; simp
  rcases g with rfl | ⟨g1, g2⟩
  · left; simp
  right
  rw [norm_mul, pow_add]
  constructor
  · have e : (1 / (2 ^ j * 2 ^ k) : ℝ) = 1 / 2 ^ j * (1 / 2 ^ k) := by field_simp
    rw [e]
    exact mul_le_mul h1 g1 (by positivity) (norm_nonneg _)
  · exact mul_le_mul h2 g2 (norm_nonneg _) (by positivity)

theorem Rc.inv (h : Rc k z) : Rc k z⁻¹ := by
  rcases h with rfl | ⟨h1, h2⟩
  · left; simp
  right
  have h0 : 0 < ‖z‖ := lt_of_lt_of_le (by positivity) h1
  rw [norm_inv]
  constructor
  · rw [one_div]; exact inv_anti₀ h0 h2
  · have := inv_anti₀ (by positivity) h1
    simpa using this

theorem Rc.div (h : Rc j z) (g : Rc k w) : Rc (j + k) (z / w) := by
  rw [div_eq_mul_inv]; exact h.mul g.inv

theorem Rc.neg (h : Rc k z) : Rc k (-z) := by
  unfold Rc at *
  rwa [neg_eq_zero, norm_neg]

theorem Rc.rnd (hF : F.Ok) (h : Rc k z) : Rc (k + 1) (F.cx z) := by
  have h3 := hF.cx z
  rcases h with rfl | ⟨h1, h2⟩
  · left
    simpa using h3
  right
  have a := norm_sub_norm_le (F.cx z) z
  have b := norm_sub_norm_le z (F.cx z)
  rw [norm_sub_rev] at b
  have c : 1 / 2 ^ 53 * ‖z‖ ≤ 1 / 2 * ‖z‖ := mul_le_mul_of_nonneg_right (by norm_num) (norm_nonneg _)
  have e : (1 / 2 ^ (k + 1) : ℝ) = 1 / 2 ^ k * (1 / 2) := by rw [pow_succ]; field_simp
  rw [e, pow_succ]
  have h0 := norm_nonneg z
  constructor <;> linarith

theorem Rc.agree (h : Rc k z) (hG : G.Agree F) (hk : k ≤ 1022) : G.cx z = F.cx z := by
  by_cases hq : ∃ q : ℚ, z = q
  · obtain ⟨q, rfl⟩ := hq
    rw [Fl.cx_rat, Fl.cx_rat, hG q]
    have e : ‖(q : ℂ)‖ = ((|q| : ℚ) : ℝ) := by
      have : (q : ℂ) = ((q : ℝ) : ℂ) := by push_cast; rfl
      rw [this, Complex.norm_real, Real.norm_eq_abs]
      push_cast; rfl
    rcases h.mono hk with h | ⟨h1, h2⟩
    · left; exact_mod_cast h
    · right
      rw [e] at h1 h2
      have h1' : ((1 / 2 ^ 1022 : ℚ) : ℝ) ≤ ((|q| : ℚ) : ℝ) := by
        rw [Rat.cast_div, Rat.cast_pow]
        simpa only [Rat.cast_one, Rat.cast_ofNat] using h1
      refine ⟨Rat.cast_le.mp h1', ?_⟩
      have : |q| ≤ 2 ^ 1022 := by exact_mod_cast h2
      exact this.trans (pow_le_pow_right₀ (by norm_num) (by norm_num))
  · unfold Fl.cx
    rw [dif_neg hq, dif_neg hq]

/-- A difference that cancels completely or not much. -/
theorem Rc.sub (hF : F.Ok) {y : ℂ} (hz : ‖z‖ ≤ 1000) (hy : y = 0 ∨ y = 1)
    (h : z = y ∨ 1 / 2 ^ 40 ≤ ‖z - y‖) : Rc 41 (F.cx z - y) := by
  rcases h with rfl | h
  · left
    rcases hy with rfl | rfl
    · have := Fl.cx_rat F 0
      rw [hF.zero] at this
      simpa using this
    · have := Fl.cx_rat F 1
      rw [hF.one] at this
      simpa using sub_eq_zero.mpr this
  replace hy : ‖y‖ ≤ 1 := by rcases hy with rfl | rfl <;> simp
  right
  have h3 := hF.cx z
  have a : ‖z - y‖ ≤ ‖F.cx z - y‖ + ‖F.cx z - z‖ := by
    have := norm_sub_le (F.cx z - y) (F.cx z - z)
    rwa [sub_sub_sub_cancel_left] at this
  have b : ‖F.cx z - y‖ ≤ ‖F.cx z - z‖ + ‖z‖ + ‖y‖ := by
    have h1 := norm_sub_le (F.cx z) y
    have h2 := norm_add_le (F.cx z - z) z
    rw [sub_add_cancel] at h2
    linarith
  have c : 1 / 2 ^ 53 * ‖z‖ ≤ 1 / 2 ^ 53 * 1000 := mul_le_mul_of_nonneg_left hz (by norm_num)
  constructor
  · have : (1 / 2 ^ 41 : ℝ) ≤ 1 / 2 ^ 40 - 1 / 2 ^ 53 * 1000 := by norm_num
    linarith
  · have : (1 / 2 ^ 53 * 1000 + 1000 + 1 : ℝ) ≤ 2 ^ 41 := by norm_num
    linarith

end Rc

/-- Hyperparameters that float64 handles: every one is zero or between `2^-100` and `2^100` in
magnitude, and the differences `1 - eta`, `c0 - 0`, `c0 - 1` are zero or not tiny. -/
structure HyperRange (p : Hyper ℂ) : Prop where
  gamma : Rc 100 p.gamma
  c1 : Rc 100 p.c1
  c3 : Rc 100 p.c3
  c0 : ‖p.c0‖ ≤ 1000
  c0y : ∀ y : ℂ, y = 0 ∨ y = 1 → p.c0 = y ∨ 1 / 2 ^ 40 ≤ ‖p.c0 - y‖
  eta : ∀ t, Rc 100 (p.eta t)
  eta1 : ∀ t, ‖p.eta t‖ ≤ 1000 ∧ (p.eta t = 1 ∨ 1 / 2 ^ 40 ≤ ‖p.eta t - 1‖)
  batch : 1 ≤ p.batchSize ∧ p.batchSize ≤ 2 ^ 53

/-- The rounding gives the same scales and constants as the rounding of the parameters. -/
structure FlSame (prm : CPar C) (p : Hyper ℂ) (G : Fl) : Prop where
  ops : SameOps prm G
  k1 : ∀ label : List ℂ, (∀ y ∈ label, y = 0 ∨ y = 1) → fconst1 G p label = fconst1 prm.fl p label
  k2 : ∀ label : List ℂ, (∀ y ∈ label, y = 0 ∨ y = 1) → ∀ t,
    fconst2 G p label t = fconst2 prm.fl p label t
  c3 : ∀ n, fconst3 G p n = fconst3 prm.fl p n
  c4 : ∀ n t, fconst4 G p n t = fconst4 prm.fl p n t
  c5 : ∀ n, fconst5 G p n = fconst5 prm.fl p n
  c6 : ∀ n t, fconst6 G p n t = fconst6 prm.fl p n t
  c7 : ∀ n t, fconst7 G p n t = fconst7 prm.fl p n t
  c8 : ∀ n, fconst8 G p n = fconst8 prm.fl p n
  c9 : ∀ n, fconst9 G p n = fconst9 prm.fl p n

theorem FlSame.refl (prm : CPar C) (p : Hyper ℂ) : FlSame prm p prm.fl :=
  ⟨Or.inl rfl, fun _ _ => rfl, fun _ _ _ => rfl, fun _ => rfl, fun _ _ => rfl, fun _ => rfl,
    fun _ _ => rfl, fun _ _ => rfl, fun _ => rfl, fun _ => rfl⟩

/-- Agreement on the normal range is enough for hyperparameters in range. -/
theorem FlSame.of_agree {p : Hyper ℂ} (hF : prm.fl.Ok) (hG : G.Agree prm.fl)
    (hq : ∀ i < C.nQ, C.q i ≤ 2 ^ 64) (hs : prm.scale ≤ 2 ^ 64) (hp : HyperRange p) : FlSame prm p G := by
  have r0 : Rc 53 (p.batchSize : ℂ) := by
    right
    rw [Complex.norm_natCast]
    have h1 : (1 : ℝ) ≤ p.batchSize := by exact_mod_cast hp.batch.1
    exact ⟨le_trans (by norm_num) h1, by exact_mod_cast hp.batch.2⟩
  have ec0 : Rc 40 p.c0 := by
    refine (hp.c0y 0 (Or.inl rfl)).imp_right fun h => ⟨?_, hp.c0.trans (by norm_num)⟩
    simpa using h
  have a0 := ec0.agree hG (by norm_num)
  have a1 := hp.c1.agree hG (by norm_num)
  have a3 := hp.c3.agree hG (by norm_num)
  have ag := hp.gamma.agree hG (by norm_num)
  have ae := fun t => (hp.eta t).agree hG (by norm_num)
  have rg := (hp.gamma.rnd hF).neg.div r0
  have ag' := rg.agree hG (by norm_num)
  have re : ∀ t, Rc 41 (1 - prm.fl.cx (p.eta t)) := fun t => by
    rw [← neg_sub]
    exact (Rc.sub hF (hp.eta1 t).1 (Or.inr rfl) (hp.eta1 t).2).neg
  have ae' := fun t => (re t).agree hG (by norm_num)
  have rge := fun t => ((re t).rnd hF).neg.mul (hp.gamma.rnd hF)
  have age := fun t => (rge t).agree hG (by norm_num)
  have rge' := fun t => ((rge t).rnd hF).div r0
  have age' := fun t => (rge' t).agree hG (by norm_num)
  have ry : ∀ y : ℂ, y = 0 ∨ y = 1 → Rc 41 (prm.fl.cx p.c0 - (y.re : ℂ)) := by
    intro y hy
    have e : (y.re : ℂ) = y := by rcases hy with rfl | rfl <;> simp
    rw [e]
    exact Rc.sub hF hp.c0 hy (hp.c0y y hy)
  refine ⟨Or.inr ⟨hG, hq, hs⟩, fun label hl => ?_, fun label hl t => ?_, fun n => ?_, fun n t => ?_,
    fun n => ?_, fun n t => ?_, fun n t => ?_, fun n => ?_, fun n => ?_⟩
  · unfold fconst1
    refine List.map_congr_left fun y hy => ?_
    rw [ag, a0, ag', (ry y (hl y hy)).agree hG (by norm_num)]
    exact ((rg.rnd hF).mul ((ry y (hl y hy)).rnd hF)).agree hG (by norm_num)
  · unfold fconst2
    refine List.map_congr_left fun y hy => ?_
    rw [ae, ae', ag, age, age', a0, (ry y (hl y hy)).agree hG (by norm_num)]
    exact (((rge' t).rnd hF).mul ((ry y (hl y hy)).rnd hF)).agree hG (by norm_num)
  · unfold fconst3
    rw [ag, a3, ag', ((rg.rnd hF).mul (hp.c3.rnd hF)).agree hG (by norm_num)]
  · unfold fconst4
    rw [ae, ae', ag, age, age', a3, (((rge' t).rnd hF).mul (hp.c3.rnd hF)).agree hG (by norm_num)]
  · unfold fconst5
    rw [a1, a3, ((hp.c1.rnd hF).div (hp.c3.rnd hF)).agree hG (by norm_num)]
  · unfold fconst6
    rw [ae, ae']
  · unfold fconst7
    rw [ae]
  · unfold fconst8
    rw [a3]
  · unfold fconst9
    rw [a0]

theorem mainConsts_fl {p : Hyper ℂ} (h : FlSame prm p G) (E : Encoder C (List ℂ)) (n w : ℕ) (c c' : CCt C) :
    mainConsts E (prm.withFl G) p n w c c' = mainConsts E prm p n w c c' := by
  unfold mainConsts CPar.withFl
  simp only [h.c3, h.c4, h.c6, h.c7, h.c8]
  rfl

theorem mainData_fl {p : Hyper ℂ} (h : FlSame prm p G) (E : Encoder C (List ℂ)) (z : CCt C) {label : List ℂ}
    (hl : ∀ y ∈ label, y = 0 ∨ y = 1) :
    mainData E (prm.withFl G) p z label = mainData E prm p z label := by
  unfold mainData CPar.withFl
  simp only [h.k1 label hl, h.k2 label hl]
  rfl

/-! ## The exact runs -/

/-- A fresh value: top level, the parameters' scale. -/
def TopX (prm : CPar C) (x : XVal C) : Prop := x.lvl = C.nQ - 1 ∧ x.scale = prm.scale

/-- Fresh constants and data. -/
structure TopConsts (prm : CPar C) (k : Consts (XVal C) (RQ C × ℚ)) : Prop where
  mask : k.mask.2 = prm.scale
  c3 : k.c3.2 = prm.scale
  c4 : ∀ a, (k.c4 a).2 = prm.scale
  c5 : TopX prm k.c5
  c6 : ∀ a, (k.c6 a).2 = prm.scale
  c7 : ∀ a, (k.c7 a).2 = prm.scale
  c8 : k.c8.2 = prm.scale
  c9 : TopX prm k.c9

structure TopData (prm : CPar C) (d : Data (XVal C) (RQ C × ℚ)) : Prop where
  z : TopX prm d.z
  k1 : d.k1.2 = prm.scale
  k2 : ∀ a, (d.k2 a).2 = prm.scale

theorem TopX.xmeta (H : Chain prm r K) (hn : 0 < C.nQ) {x : XVal C} (h : TopX prm x) :
    XMeta prm r K x (C.nQ - 1, 0) :=
  ⟨h.1, by omega, by
    have := H.scale
    rw [h.2]; exact ⟨by linarith, by simp, by simp⟩, Nat.zero_le _⟩

theorem TopConsts.rel (H : Chain prm r K) (hn : 0 < C.nQ) {k : Consts (XVal C) (RQ C × ℚ)}
    (h : TopConsts prm k) :
    ConstsRel (XMeta prm r K) (fun p (_ : Unit) => p.2 = prm.scale) k (metaConsts (C.nQ - 1)) :=
  ⟨h.mask, h.c3, h.c4, h.c5.xmeta H hn, h.c6, h.c7, h.c8, h.c9.xmeta H hn⟩

theorem TopData.rel (H : Chain prm r K) (hn : 0 < C.nQ) {d : Data (XVal C) (RQ C × ℚ)} (h : TopData prm d) :
    DataRel (XMeta prm r K) (fun p (_ : Unit) => p.2 = prm.scale) d (metaData (C.nQ - 1)) :=
  ⟨h.z.xmeta H hn, h.k1, h.k2⟩

/-- Equal values with manageable scales. -/
abbrev EqSc (C : Ctx) (x y : XVal C) : Prop := x = y ∧ scOk C y = true

theorem TopX.eqSc (H : Chain prm r K) (hn : 0 < C.nQ) (hs : prm.scale ≤ 2 ^ 64) {x : XVal C}
    (h : TopX prm x) : EqSc C x x := ⟨rfl, (h.xmeta H hn).sc H hs⟩

theorem TopConsts.refl (H : Chain prm r K) (hn : 0 < C.nQ) (hs : prm.scale ≤ 2 ^ 64)
    {k : Consts (XVal C) (RQ C × ℚ)} (h : TopConsts prm k) :
    ConstsRel (EqSc C) (fun p p' : RQ C × ℚ => p = p' ∧ p'.2 = prm.scale) k k :=
  ⟨⟨rfl, h.mask⟩, ⟨rfl, h.c3⟩, fun a => ⟨rfl, h.c4 a⟩, h.c5.eqSc H hn hs, fun a => ⟨rfl, h.c6 a⟩,
    fun a => ⟨rfl, h.c7 a⟩, ⟨rfl, h.c8⟩, h.c9.eqSc H hn hs⟩

theorem TopData.refl (H : Chain prm r K) (hn : 0 < C.nQ) (hs : prm.scale ≤ 2 ^ 64)
    {d : Data (XVal C) (RQ C × ℚ)} (h : TopData prm d) :
    DataRel (EqSc C) (fun p p' : RQ C × ℚ => p = p' ∧ p'.2 = prm.scale) d d :=
  ⟨h.z.eqSc H hn hs, ⟨rfl, h.k1⟩, fun a => ⟨rfl, h.k2 a⟩⟩

theorem Chain.rng (H : Chain prm r K) (hs : prm.scale ≤ 2 ^ 64) : Rng 66 prm.scale := by
  have := H.scale
  have h1 : (1 : ℚ) ≤ prm.scale := by linarith
  exact ⟨le_trans (by norm_num) h1, hs.trans (by norm_num)⟩

/-- From the same run with checks. -/
theorem same_of_guard {α : Type} {o oF : Option (XVal C × XVal C)} {w : XVal C × XVal C}
    {og : Option (XVal C × XVal C)} {R : XVal C × XVal C → α → Prop} {om : Option α} {m : α}
    (hm : om = some m) (h1 : optRel.rel R og om)
    (h2 : optRel.rel (PairRel (EqSc C)) oF og) (h3 : optRel.rel (PairRel (EqSc C)) o og)
    (hw : oF = some w) : o = some w := by
  obtain ⟨a, e, -⟩ := h1 m hm
  obtain ⟨b, e2, s1, s2⟩ := h2 a e
  obtain ⟨c, e3, t1, t2⟩ := h3 a e
  have hb : b = a := Prod.ext s1.1 s2.1
  have hc : c = a := Prod.ext t1.1 t2.1
  rw [e3, hc, ← hb, ← e2, hw]

/-- The exact training is defined as long as there are levels, and the same for all roundings. -/
theorem exact_train (H : Chain prm r K) (hC : C.Good) (hF : prm.fl.Ok)
    {k : Consts (XVal C) (RQ C × ℚ)} (hk : TopConsts prm k) (numRow numCol : ℕ)
    {d : Data (XVal C) (RQ C × ℚ)} (hd : TopData prm d) {b v : XVal C} (hb : TopX prm b)
    (hv : TopX prm v) {t : ℕ} (hn : 0 < C.nQ) (hL : 4 * t ≤ C.nQ - 1) (hK : 2 * kAfter t ≤ K) :
    ∃ w : XVal C × XVal C,
      (∀ G, SameOps prm G →
        lrTrain (exactHE (prm.withFl G) rk u rrk ra) k numRow numCol d t b v = some w) ∧
      w.1.lvl = C.nQ - 1 - 4 * t ∧ w.2.lvl = C.nQ - 1 - 4 * t ∧ Near prm.scale r (kAfter t) w.1.scale := by
  have X := exact_meta H hC hF (rk := rk) (u := u) (rrk := rrk) (ra := ra)
  have em := meta_lrTrain (K := K) hL hK numRow numCol
  obtain ⟨w, e1, h1, h2⟩ := lrTrain_sim X (hk.rel H hn) numRow numCol (hd.rel H hn) t (hb.xmeta H hn)
    (hv.xmeta H hn) _ em
  refine ⟨w, fun G hG => ?_, h1.1, h2.1, h1.2.2.1⟩
  rcases hG with rfl | ⟨hG, hq, hs⟩
  · exact e1
  have hrun := fun (G : Fl) (hG : G.Agree prm.fl) =>
    lrTrain_sim (guard_same hC hF hG hq (H.rng hs) (rk := rk) (u := u) (rrk := rrk) (ra := ra))
      (hk.refl H hn hs) numRow numCol (hd.refl H hn hs) t (hb.eqSc H hn hs) (hv.eqSc H hn hs)
  exact same_of_guard em
    (lrTrain_sim (guard_sim X fun _ _ h => h.sc H hs) (hk.rel H hn) numRow numCol (hd.rel H hn) t
      (hb.xmeta H hn) (hv.xmeta H hn)) (hrun prm.fl (Fl.Agree.refl _)) (hrun G hG) e1

theorem exact_mbTrain (H : Chain prm r K) (hC : C.Good) (hF : prm.fl.Ok)
    {k : Consts (XVal C) (RQ C × ℚ)} (hk : TopConsts prm k) (numRow numCol numBatch : ℕ) {numCt : ℕ}
    (hc : 1 ≤ numCt) {d : ℕ → ℕ → Data (XVal C) (RQ C × ℚ)} (hd : ∀ a c, TopData prm (d a c))
    {z : ℕ → XVal C × XVal C} (hz : ∀ a, TopX prm (z a).1 ∧ TopX prm (z a).2)
    {b v : XVal C} (hb : TopX prm b)
    (hv : TopX prm v) {t : ℕ} (hn : 0 < C.nQ) (hL : 4 * t ≤ C.nQ - 1) (hK : 2 * kAfter t ≤ K) :
    ∃ w : XVal C × XVal C,
      (∀ G, SameOps prm G → mbTrain (exactHE (prm.withFl G) rk u rrk ra) k numRow numCol numBatch numCt d z t
        b v = some w) ∧
      w.1.lvl = C.nQ - 1 - 4 * t ∧ w.2.lvl = C.nQ - 1 - 4 * t ∧ Near prm.scale r (kAfter t) w.1.scale := by
  have X := exact_meta H hC hF (rk := rk) (u := u) (rrk := rrk) (ra := ra)
  have em := meta_mbTrain (K := K) hL hK numRow numCol numBatch hc
  have zm : ∀ a, PairRel (XMeta prm r K) (z a) ((C.nQ - 1, 0), (C.nQ - 1, 0)) := fun a =>
    ⟨(hz a).1.xmeta H hn, (hz a).2.xmeta H hn⟩
  obtain ⟨w, e1, h1, h2⟩ := mbTrain_sim X (hk.rel H hn) numRow numCol numBatch numCt
    (fun a c => (hd a c).rel H hn) zm t (hb.xmeta H hn) (hv.xmeta H hn) _ em
  refine ⟨w, fun G hG => ?_, h1.1, h2.1, h1.2.2.1⟩
  rcases hG with rfl | ⟨hG, hq, hs⟩
  · exact e1
  have hrun := fun (G : Fl) (hG : G.Agree prm.fl) =>
    mbTrain_sim (guard_same hC hF hG hq (H.rng hs) (rk := rk) (u := u) (rrk := rrk) (ra := ra))
      (hk.refl H hn hs) numRow numCol numBatch numCt (fun a c => (hd a c).refl H hn hs)
      (fun a => (⟨(hz a).1.eqSc H hn hs, (hz a).2.eqSc H hn hs⟩ : PairRel (EqSc C) (z a) (z a))) t
      (hb.eqSc H hn hs) (hv.eqSc H hn hs)
  exact same_of_guard em
    (mbTrain_sim (guard_sim X fun _ _ h => h.sc H hs) (hk.rel H hn) numRow numCol numBatch numCt
      (fun a c => (hd a c).rel H hn) zm t (hb.xmeta H hn) (hv.xmeta H hn))
    (hrun prm.fl (Fl.Agree.refl _)) (hrun G hG) e1

theorem exact_infer (H : Chain prm r K) (hC : C.Good) (hF : prm.fl.Ok)
    {k : Consts (XVal C) (RQ C × ℚ)} (hk : TopConsts prm k) (numFeature : ℕ) {x b : XVal C}
    (hx : TopX prm x) {l e : ℕ} (hbl : b.lvl = l) (hln : l < C.nQ) (hbs : Near prm.scale r e b.scale)
    (hl : 3 ≤ l) (hK : 3 * e + 6 ≤ K) :
    ∃ w, (∀ G, SameOps prm G →
        infer (exactHE (prm.withFl G) rk u rrk ra) k numFeature x b = some w) ∧ w.lvl = l - 3 := by
  have hn : 0 < C.nQ := by omega
  have X := exact_meta H hC hF (rk := rk) (u := u) (rrk := rrk) (ra := ra)
  have em := meta_infer (K := K) (L := C.nQ - 1) (l := l) (by omega) hl hK numFeature
  have bm : XMeta prm r K b (l, e) := ⟨hbl, hln, hbs, by show e ≤ K; omega⟩
  obtain ⟨w, e1, h1⟩ := infer_sim X (hk.rel H hn) numFeature (hx.xmeta H hn) bm _ em
  refine ⟨w, fun G hG => ?_, h1.1⟩
  rcases hG with rfl | ⟨hG, hq, hs⟩
  · exact e1
  have hrun := fun (G : Fl) (hG : G.Agree prm.fl) =>
    infer_sim (guard_same hC hF hG hq (H.rng hs) (rk := rk) (u := u) (rrk := rrk) (ra := ra))
      (hk.refl H hn hs) numFeature (hx.eqSc H hn hs) (show EqSc C b b from ⟨rfl, bm.sc H hs⟩)
  obtain ⟨a, e2, -⟩ := infer_sim (guard_sim X fun _ _ h => h.sc H hs) (hk.rel H hn) numFeature
    (hx.xmeta H hn) bm _ em
  obtain ⟨b', e3, s1, -⟩ := hrun prm.fl (Fl.Agree.refl _) a e2
  obtain ⟨c', e4, t1, -⟩ := hrun G hG a e2
  rw [e4, t1, ← s1, ← e3]
  exact e1

end Lr

end MK
