import Verif.Props.LrEval
import Verif.Props.Lr

/-!
# C42: levels and scales through training and inference

`metaHE` runs a program on pairs (level, `k`): the scale is within a factor `r^k` of the
parameters' scale.  If the moduli are within a factor `r` of the scale and all exponents stay below
`K` with `r^K ≤ 3/2`, every product is rescaled by exactly one modulus and no addition multiplies
an operand.
-/

noncomputable section

namespace MK.Lr

open Finset

variable {C : Ctx}

/-- The moduli are within a factor `r` of the scale (the first one may be larger), and `r^K` is
small.  The factor `1+2^-50` absorbs the rounding of the float64 computations of the scale. -/
structure Chain (prm : CPar C) (r : ℚ) (K : ℕ) : Prop where
  one : 1 ≤ r
  pos : 1 ≤ K
  pow : r ^ K ≤ 3 / 2
  scale : 16 ≤ prm.scale
  lo : ∀ i < C.nQ, prm.scale * (1 + 1 / 2 ^ 50) ≤ r * C.q i
  hi : ∀ i, 1 ≤ i → i < C.nQ → C.q i * (1 + 1 / 2 ^ 50) ≤ r * prm.scale

/-- Levels and scale exponents. -/
def metaHE (K : ℕ) : HE Option (ℕ × ℕ) Unit where
  mulRelin _ a b := if 1 ≤ min a.1 b.1 ∧ a.2 + b.2 + 1 ≤ K then
    some (min a.1 b.1 - 1, a.2 + b.2 + 1) else none
  mulPtxt a _ := if 1 ≤ a.1 ∧ a.2 + 1 ≤ K then some (a.1 - 1, a.2 + 1) else none
  add a b := if a.2 + b.2 ≤ K then some (min a.1 b.1, max a.2 b.2) else none
  rotate a _ := some a

/-- `o₁` is defined where `o₂` is, with related values. -/
def optRel : MonadRel Option Option where
  rel R o₁ o₂ := ∀ b, o₂ = some b → ∃ a, o₁ = some a ∧ R a b
  pure h b hb := by cases hb; exact ⟨_, rfl, h⟩
  bind {_ _ _ _ _ _ m₁ m₂ f₁ f₂} h hf b hb := by
    cases e : m₂ with
    | none => rw [e] at hb; cases hb
    | some y =>
      rw [e] at hb
      obtain ⟨a, e1, h1⟩ := h y e
      obtain ⟨a', e2, h2⟩ := hf a y h1 b hb
      refine ⟨a', ?_, h2⟩
      rw [e1]
      exact e2

/-- The scale is within `r^k` of the parameters' scale. -/
def Near (S r : ℚ) (k : ℕ) (s : ℚ) : Prop := 0 < s ∧ S ≤ s * r ^ k ∧ s ≤ S * r ^ k

/-- Level and scale exponent of a description. -/
def HasMeta (C : Ctx) (S r : ℚ) {n : ℕ} (v : AVal n) (m : ℕ × ℕ) : Prop :=
  v.lvl = m.1 ∧ m.1 < C.nQ ∧ Near S r m.2 v.scale

theorem Near.mono {S r : ℚ} (hr : 1 ≤ r) (hS : 0 ≤ S) {k k' : ℕ} (h : k ≤ k') {s : ℚ}
    (H : Near S r k s) : Near S r k' s := by
  have : r ^ k ≤ r ^ k' := pow_le_pow_right₀ hr h
  exact ⟨H.1, H.2.1.trans (mul_le_mul_of_nonneg_left this H.1.le),
    H.2.2.trans (mul_le_mul_of_nonneg_left this hS)⟩

variable {prm : CPar C} {r : ℚ} {K : ℕ}

theorem Chain.le_three_halves (h : Chain prm r K) {k : ℕ} (hk : k ≤ K) : r ^ k ≤ 3 / 2 :=
  (pow_le_pow_right₀ h.one hk).trans h.pow

theorem round_quot {F : Fl} (hF : F.Ok) {a q : ℚ} (ha : 0 ≤ a) (hq : 0 < q) :
    F.rnd (F.rnd a / F.rnd q) ≤ a / q * (1 + 1 / 2 ^ 50) ∧
      a / q ≤ F.rnd (F.rnd a / F.rnd q) * (1 + 1 / 2 ^ 50) := by
  obtain ⟨a1, a2⟩ := hF.bounds ha
  obtain ⟨q1, q2⟩ := hF.bounds hq.le
  have hqp := hF.pos hq
  have hap := hF.nonneg ha
  obtain ⟨d1, d2⟩ := hF.bounds (div_nonneg hap hqp.le)
  have hc : (0 : ℚ) < q * (1 - 1 / 2 ^ 53) := by positivity
  have hd : F.rnd a / F.rnd q ≤ a * (1 + 1 / 2 ^ 53) / (q * (1 - 1 / 2 ^ 53)) :=
    div_le_div₀ (by positivity) a2 hc q1
  have hd' : a * (1 - 1 / 2 ^ 53) / (q * (1 + 1 / 2 ^ 53)) ≤ F.rnd a / F.rnd q :=
    div_le_div₀ hap a1 hqp q2
  have h0 : 0 ≤ a / q := by positivity
  have e1 : a * (1 + 1 / 2 ^ 53) / (q * (1 - 1 / 2 ^ 53)) =
      a / q * ((1 + 1 / 2 ^ 53) / (1 - 1 / 2 ^ 53)) := by field_simp
  have e2 : a * (1 - 1 / 2 ^ 53) / (q * (1 + 1 / 2 ^ 53)) =
      a / q * ((1 - 1 / 2 ^ 53) / (1 + 1 / 2 ^ 53)) := by field_simp
  rw [e1] at hd
  rw [e2] at hd'
  constructor
  · calc F.rnd (F.rnd a / F.rnd q) ≤ F.rnd a / F.rnd q * (1 + 1 / 2 ^ 53) := d2
      _ ≤ a / q * ((1 + 1 / 2 ^ 53) / (1 - 1 / 2 ^ 53)) * (1 + 1 / 2 ^ 53) := by gcongr
      _ = a / q * ((1 + 1 / 2 ^ 53) / (1 - 1 / 2 ^ 53) * (1 + 1 / 2 ^ 53)) := by ring
      _ ≤ _ := mul_le_mul_of_nonneg_left (by norm_num) h0
  · calc a / q ≤ a / q * (((1 - 1 / 2 ^ 53) / (1 + 1 / 2 ^ 53) * (1 - 1 / 2 ^ 53)) *
          (1 + 1 / 2 ^ 50)) := le_mul_of_one_le_right h0 (by norm_num)
      _ = a / q * ((1 - 1 / 2 ^ 53) / (1 + 1 / 2 ^ 53)) * (1 - 1 / 2 ^ 53) * (1 + 1 / 2 ^ 50) := by
          ring
      _ ≤ F.rnd a / F.rnd q * (1 - 1 / 2 ^ 53) * (1 + 1 / 2 ^ 50) := by
          gcongr
      _ ≤ _ := by gcongr

/-- The scale of a product, one modulus dropped. -/
theorem Chain.prodScale (h : Chain prm r K) (hF : prm.fl.Ok) {l : ℕ} (hl : 1 ≤ l) (hl' : l < C.nQ)
    (hq : 0 < C.q l) {s t : ℚ} {k k' : ℕ} (hs : Near prm.scale r k s) (ht : Near prm.scale r k' t) :
    Near prm.scale r (k + k' + 1) (prodScale prm.fl C.q l s t) := by
  have hS : 0 < prm.scale := lt_of_lt_of_le (by norm_num) h.scale
  have hr : 0 < r := lt_of_lt_of_le one_pos h.one
  have hqQ : (0 : ℚ) < C.q l := by exact_mod_cast hq
  refine ⟨prodScale_pos hF hq hs.1 ht.1, ?_⟩
  unfold Lr.prodScale scaleSeq scaleSeq
  rw [Nat.sub_zero]
  obtain ⟨u1, u2⟩ := round_quot hF (mul_pos hs.1 ht.1).le hqQ
  have hlo := h.lo l hl'
  have hhi := h.hi l hl hl'
  set v := prm.fl.rnd (prm.fl.rnd (s * t) / prm.fl.rnd (C.q l)) with hv
  have hv0 : 0 ≤ v := hF.nonneg (div_nonneg (hF.nonneg (mul_pos hs.1 ht.1).le) (hF.nonneg hqQ.le))
  have hst : s * t ≤ (prm.scale * r ^ k) * (prm.scale * r ^ k') :=
    mul_le_mul hs.2.2 ht.2.2 ht.1.le (by positivity)
  have hst' : prm.scale * prm.scale ≤ (s * r ^ k) * (t * r ^ k') :=
    mul_le_mul hs.2.1 ht.2.1 hS.le (mul_nonneg hs.1.le (by positivity))
  have hp : r ^ (k + k' + 1) = r ^ k * r ^ k' * r := by rw [pow_succ, pow_add]
  constructor
  · -- S ≤ v r^(k+k'+1)
    rw [hp]
    have h1 : s * t ≤ v * (1 + 1 / 2 ^ 50) * C.q l := (div_le_iff₀ hqQ).mp u2
    have h2 : prm.scale * prm.scale ≤ v * (r ^ k * r ^ k') * (C.q l * (1 + 1 / 2 ^ 50)) := by
      calc prm.scale * prm.scale ≤ (s * t) * (r ^ k * r ^ k') := by linarith [hst']
        _ ≤ (v * (1 + 1 / 2 ^ 50) * C.q l) * (r ^ k * r ^ k') :=
            mul_le_mul_of_nonneg_right h1 (by positivity)
        _ = _ := by ring
    have h3 : v * (r ^ k * r ^ k') * (C.q l * (1 + 1 / 2 ^ 50)) ≤
        v * (r ^ k * r ^ k') * (r * prm.scale) :=
      mul_le_mul_of_nonneg_left hhi (by positivity)
    have h4 : prm.scale * prm.scale ≤ (v * (r ^ k * r ^ k' * r)) * prm.scale := by
      linarith [h2.trans h3]
    exact le_of_mul_le_mul_right h4 hS
  · rw [hp]
    have h1 : v ≤ (s * t) * (1 + 1 / 2 ^ 50) / C.q l := by
      calc v ≤ s * t / C.q l * (1 + 1 / 2 ^ 50) := u1
        _ = _ := by ring
    have h2 : v * C.q l ≤ (s * t) * (1 + 1 / 2 ^ 50) := (le_div_iff₀ hqQ).mp h1
    have h3 : (s * t) * (1 + 1 / 2 ^ 50) ≤
        (prm.scale * (r ^ k * r ^ k')) * (prm.scale * (1 + 1 / 2 ^ 50)) := by
      calc (s * t) * (1 + 1 / 2 ^ 50) ≤
          ((prm.scale * r ^ k) * (prm.scale * r ^ k')) * (1 + 1 / 2 ^ 50) := by gcongr
        _ = _ := by ring
    have h4 : (prm.scale * (r ^ k * r ^ k')) * (prm.scale * (1 + 1 / 2 ^ 50)) ≤
        (prm.scale * (r ^ k * r ^ k')) * (r * C.q l) :=
      mul_le_mul_of_nonneg_left hlo (by positivity)
    have h5 : v * C.q l ≤ (prm.scale * (r ^ k * r ^ k' * r)) * C.q l := by
      linarith [h2.trans (h3.trans h4)]
    exact le_of_mul_le_mul_right h5 hqQ

/-- Exactly one modulus is dropped. -/
theorem Chain.rescaleBy (h : Chain prm r K) (hC : C.Good) (hF : prm.fl.Ok) {l : ℕ} (hl : 1 ≤ l)
    (hl' : l < C.nQ) {s t : ℚ} {k k' : ℕ} (hk : k + k' + 1 ≤ K) (hs : Near prm.scale r k s)
    (ht : Near prm.scale r k' t) :
    RescaleBy prm.fl C.q prm.scale (prm.fl.rnd (s * t)) l 1 := by
  have hS : 0 < prm.scale := lt_of_lt_of_le (by norm_num) h.scale
  obtain ⟨v0, v1, v2⟩ := h.prodScale hF hl hl' (hC.posQ l) hs ht
  have hr32 := h.le_three_halves hk
  have hr1 : r ≤ 3 / 2 := by simpa using h.le_three_halves h.pos
  refine Or.inr ⟨hS, (hF.pos (mul_pos hs.1 ht.1)).ne', hl, hl, fun m hm => ?_, ?_⟩
  · obtain rfl : m = 0 := by omega
    show prm.scale / 2 ≤ Lr.prodScale prm.fl C.q l s t
    have : Lr.prodScale prm.fl C.q l s t * r ^ (k + k' + 1) ≤
        Lr.prodScale prm.fl C.q l s t * (3 / 2) := mul_le_mul_of_nonneg_left hr32 v0.le
    linarith
  · show prm.fl.rnd (Lr.prodScale prm.fl C.q l s t / prm.fl.rnd (C.q (l - 1))) < prm.scale / 2
    set v := Lr.prodScale prm.fl C.q l s t
    have hq : (0 : ℚ) < C.q (l - 1) := by exact_mod_cast hC.posQ _
    have hqp := hF.pos hq
    obtain ⟨q1, _⟩ := hF.bounds hq.le
    have hlo := h.lo (l - 1) (by omega)
    have hv : v ≤ prm.scale * (3 / 2) := v2.trans (mul_le_mul_of_nonneg_left hr32 hS.le)
    have hq2 : prm.scale / 2 ≤ prm.fl.rnd (C.q (l - 1)) := by
      have h1 : prm.scale ≤ 3 / 2 * C.q (l - 1) := by
        have : r * C.q (l - 1) ≤ 3 / 2 * C.q (l - 1) := mul_le_mul_of_nonneg_right hr1 hq.le
        have h50 : prm.scale ≤ prm.scale * (1 + 1 / 2 ^ 50) := le_mul_of_one_le_right hS.le (by norm_num)
        linarith
      have h2 : (C.q (l - 1) : ℚ) * (3 / 4) ≤ C.q (l - 1) * (1 - 1 / 2 ^ 53) :=
        mul_le_mul_of_nonneg_left (by norm_num) hq.le
      linarith
    have hd : v / prm.fl.rnd (C.q (l - 1)) ≤ 3 := by
      rw [div_le_iff₀ hqp]; linarith
    have h0 : 0 ≤ v / prm.fl.rnd (C.q (l - 1)) := div_nonneg v0.le hqp.le
    have := (hF.bounds h0).2
    have h16 := h.scale
    have : v / prm.fl.rnd (C.q (l - 1)) * (1 + 1 / 2 ^ 53) ≤ 3 * (1 + 1 / 2 ^ 53) :=
      mul_le_mul_of_nonneg_right hd (by norm_num)
    have : (3 : ℚ) * (1 + 1 / 2 ^ 53) < 8 := by norm_num
    linarith

/-- No alignment. -/
theorem Chain.align (h : Chain prm r K) (hF : prm.fl.Ok) {s t : ℚ} {k k' : ℕ} (hk : k + k' ≤ K)
    (hs : Near prm.scale r k s) (ht : Near prm.scale r k' t) : alignInt prm.fl s t = 1 := by
  unfold alignInt
  rw [if_neg]
  rintro ⟨_, h2⟩
  have hr : 0 < r := lt_of_lt_of_le one_pos h.one
  have hd : t / s ≤ 3 / 2 := by
    rw [div_le_iff₀ hs.1]
    have h1 : t ≤ s * (r ^ k * r ^ k') := by
      calc t ≤ prm.scale * r ^ k' := ht.2.2
        _ ≤ (s * r ^ k) * r ^ k' := mul_le_mul_of_nonneg_right hs.2.1 (by positivity)
        _ = _ := by ring
    rw [← pow_add] at h1
    have := mul_le_mul_of_nonneg_left (h.le_three_halves hk) hs.1.le
    linarith
  have h3 := (hF.bounds (div_pos ht.1 hs.1).le).2
  have h4 : t / s * (1 + 1 / 2 ^ 53) ≤ 3 / 2 * (1 + 1 / 2 ^ 53) :=
    mul_le_mul_of_nonneg_right hd (by norm_num)
  have h5 : (3 / 2 : ℚ) * (1 + 1 / 2 ^ 53) < 2 := by norm_num
  have h6 : (2 : ℚ) ≤ prm.fl.rnd (t / s) := by
    have := Int.floor_le (prm.fl.rnd (t / s))
    have h7 : ((2 : ℤ) : ℚ) ≤ (⌊prm.fl.rnd (t / s)⌋ : ℚ) := by exact_mod_cast h2
    push_cast at h7
    linarith
  linarith

variable {n : ℕ} [NeZero n]

/-- **Where the exponents stay below `K`, the description is defined**: every product is rescaled
once and every sum is plain. -/
theorem boundHE_sim (h : Chain prm r K) (hC : C.Good) (hF : prm.fl.Ok) (c : ℕ) (D T B : ℤ) :
    HESim optRel (boundHE prm n c D T B) (metaHE K) (HasMeta C prm.scale r) (fun _ _ => True) := by
  have hS : 0 < prm.scale := lt_of_lt_of_le (by norm_num) h.scale
  have mul : ∀ {same : Bool} {a b : AVal n} {a' b' : ℕ × ℕ}, HasMeta C prm.scale r a a' →
      HasMeta C prm.scale r b b' → optRel.rel (HasMeta C prm.scale r)
        ((boundHE prm n c D T B).mulRelin same a b) ((metaHE K).mulRelin same a' b') := by
    rintro same a b a' b' ⟨la, la', na⟩ ⟨lb, lb', nb⟩ m hm
    simp only [metaHE] at hm
    split at hm
    swap
    · cases hm
    rename_i hc
    cases hm
    have hl : min a'.1 b'.1 < C.nQ := lt_of_le_of_lt (min_le_left _ _) la'
    have hby := h.rescaleBy hC hF hc.1 hl hc.2 na nb
    rw [← la, ← lb] at hby hl hc ⊢
    exact ⟨_, if_pos hby, rfl, lt_of_le_of_lt (Nat.sub_le _ _) hl,
      h.prodScale hF hc.1 hl (hC.posQ _) na nb⟩
  refine ⟨mul, fun ha => mul ha ha, ?_, ?_, ?_⟩
  · rintro a a' p p' ⟨la, la', na⟩ - m hm
    simp only [metaHE] at hm
    split at hm
    swap
    · cases hm
    rename_i hc
    cases hm
    have n0 : Near prm.scale r 0 prm.scale := ⟨hS, by simp, by simp⟩
    have hby := h.rescaleBy hC hF hc.1 la' (by omega) na n0
    rw [← la] at hby la' hc ⊢
    have hsc := h.prodScale hF hc.1 la' (hC.posQ _) na n0
    rw [add_zero] at hsc
    exact ⟨_, if_pos hby, rfl, lt_of_le_of_lt (Nat.sub_le _ _) la', hsc⟩
  · rintro a b a' b' ⟨la, la', na⟩ ⟨lb, lb', nb⟩ m hm
    simp only [metaHE] at hm
    split at hm
    swap
    · cases hm
    rename_i hc
    cases hm
    refine ⟨_, if_pos ⟨h.align hF hc na nb, h.align hF (by omega) nb na⟩, ?_, ?_, ?_⟩
    · show min a.lvl b.lvl = min a'.1 b'.1
      rw [la, lb]
    · exact lt_of_le_of_lt (min_le_left _ _) la'
    · show Near prm.scale r (max a'.2 b'.2) (max a.scale b.scale)
      rcases le_total a.scale b.scale with hle | hle
      · rw [max_eq_right hle]
        exact nb.mono h.one hS.le (le_max_right _ _)
      · rw [max_eq_left hle]
        exact na.mono h.one hS.le (le_max_left _ _)
  · rintro a a' k ⟨la, la', na⟩ m hm
    simp only [metaHE] at hm
    cases hm
    exact ⟨_, rfl, la, la', na⟩

/-! ## Running `metaHE` -/

/-- Constants and data are fresh. -/
def metaConsts (L : ℕ) : Consts (ℕ × ℕ) Unit := ⟨(), (), fun _ => (), (L, 0), fun _ => (), fun _ => (), (),
  (L, 0)⟩
def metaData (L : ℕ) : Data (ℕ × ℕ) Unit := ⟨(L, 0), (), fun _ => ()⟩

theorem meta_rotAdd {l k : ℕ} (hk : 2 * k ≤ K) (d : ℕ → ℤ) (m i : ℕ) :
    forDouble m i (fun i ct => do
      let r ← (metaHE K).rotate ct (d i)
      (metaHE K).add ct r) (l, k) = some (l, k) := by
  have key : ∀ t i, m - i ≤ t → forDouble m i (fun i ct => do
      let r ← (metaHE K).rotate ct (d i)
      (metaHE K).add ct r) (l, k) = some (l, k) := by
    intro t
    induction t with
    | zero =>
      intro i hi
      rw [forDouble, dif_neg (by omega)]; rfl
    | succ t ih =>
      intro i hi
      rw [forDouble]
      by_cases hc : i < m ∧ 0 < i
      · rw [dif_pos hc]
        have : (metaHE K).add (l, k) (l, k) = some (l, k) := by
          simp only [metaHE]
          rw [if_pos (by omega)]
          simp
        show ((metaHE K).add (l, k) (l, k) >>= _) = _
        rw [this]
        exact ih _ (by omega)
      · rw [dif_neg hc]; rfl
  exact key _ i le_rfl

theorem meta_mul {l k l' k' l'' k'' : ℕ} (same : Bool) (h1 : 1 ≤ min l l') (hK : k + k' + 1 ≤ K)
    (e1 : min l l' - 1 = l'') (e2 : k + k' + 1 = k'') :
    (metaHE K).mulRelin same (l, k) (l', k') = some (l'', k'') := by
  simp only [metaHE]; rw [if_pos ⟨h1, hK⟩, e1, e2]

theorem meta_pt {l k l'' k'' : ℕ} (h1 : 1 ≤ l) (hK : k + 1 ≤ K) (e1 : l - 1 = l'')
    (e2 : k + 1 = k'') : (metaHE K).mulPtxt (l, k) () = some (l'', k'') := by
  simp only [metaHE]; rw [if_pos ⟨h1, hK⟩, e1, e2]

theorem meta_add {l k l' k' l'' k'' : ℕ} (hK : k + k' ≤ K) (e1 : min l l' = l'')
    (e2 : max k k' = k'') : (metaHE K).add (l, k) (l', k') = some (l'', k'') := by
  simp only [metaHE]; rw [if_pos hK, e1, e2]

theorem opt_bind {α β : Type} {o : Option α} {a : α} {f : α → Option β} (h : o = some a) :
    (o >>= f) = f a := by rw [h]; rfl

theorem meta_depth3 {L l k : ℕ} (hl : l ≤ L) (h4 : 4 ≤ l) (hK : 6 * k + 20 ≤ K) (numCol a : ℕ) :
    depth3 (metaHE K) (metaConsts L) numCol a (metaData L) (l, k) =
      some ((L - 1, 1), (L - 1, 1), (l - 3, 2 * k + 5), (l - 3, k + 4), (l - 3, k + 4)) := by
  unfold depth3 SumColVec
  simp only [metaConsts, metaData]
  rw [opt_bind (meta_mul (l'' := l - 1) (k'' := k + 1) _ (by omega) (by omega) (by omega) (by omega)),
    opt_bind (meta_pt (l'' := L - 1) (k'' := 1) (by omega) (by omega) (by omega) (by omega)),
    opt_bind (meta_pt (l'' := L - 1) (k'' := 1) (by omega) (by omega) (by omega) (by omega)),
    opt_bind (meta_pt (l'' := L - 1) (k'' := 1) (by omega) (by omega) (by omega) (by omega)),
    opt_bind (meta_pt (l'' := L - 1) (k'' := 1) (by omega) (by omega) (by omega) (by omega)),
    opt_bind (a := (l - 2, k + 2)) (by
      rw [opt_bind (meta_rotAdd (by omega) _ _ _),
        opt_bind (meta_pt (l'' := l - 2) (k'' := k + 2) (by omega) (by omega) (by omega) (by omega))]
      exact meta_rotAdd (by omega) _ _ _),
    opt_bind (meta_mul (l'' := l - 3) (k'' := 2 * k + 5) _ (by omega) (by omega) (by omega) (by omega)),
    opt_bind (meta_add (l'' := l - 3) (k'' := 2 * k + 5) (by omega) (by omega) (by omega)),
    opt_bind (meta_mul (l'' := l - 3) (k'' := k + 4) _ (by omega) (by omega) (by omega) (by omega)),
    opt_bind (meta_mul (l'' := l - 3) (k'' := k + 4) _ (by omega) (by omega) (by omega) (by omega))]
  rfl

theorem meta_lrIter {L l k : ℕ} (hl : l ≤ L) (h4 : 4 ≤ l) (hK : 6 * k + 20 ≤ K)
    (numRow numCol a : ℕ) :
    lrIter (metaHE K) (metaConsts L) numRow numCol (metaData L) a ((l, k), (l, k)) =
      some ((l - 4, 3 * k + 10), (l - 4, 3 * k + 10)) := by
  unfold lrIter SumRowVec
  simp only
  rw [opt_bind (meta_depth3 hl h4 hK numCol a)]
  simp only [metaConsts]
  rw [opt_bind (meta_mul (l'' := l - 4) (k'' := 3 * k + 10) _ (by omega) (by omega) (by omega)
      (by omega)),
    opt_bind (meta_add (l'' := l - 4) (k'' := 3 * k + 10) (by omega) (by omega) (by omega)),
    opt_bind (meta_rotAdd (by omega) _ _ _),
    opt_bind (meta_add (l'' := l - 4) (k'' := 3 * k + 10) (by omega) (by omega) (by omega)),
    opt_bind (meta_mul (l'' := l - 4) (k'' := 3 * k + 10) _ (by omega) (by omega) (by omega)
      (by omega)),
    opt_bind (meta_add (l'' := l - 4) (k'' := 3 * k + 10) (by omega) (by omega) (by omega)),
    opt_bind (meta_pt (l'' := l - 1) (k'' := k + 1) (by omega) (by omega) (by omega) (by omega)),
    opt_bind (meta_pt (l'' := l - 1) (k'' := k + 1) (by omega) (by omega) (by omega) (by omega)),
    opt_bind (meta_add (l'' := l - 1) (k'' := k + 1) (by omega) (by omega) (by omega)),
    opt_bind (meta_rotAdd (by omega) _ _ _),
    opt_bind (meta_add (l'' := l - 4) (k'' := 3 * k + 10) (by omega) (by omega) (by omega))]
  rfl

theorem meta_mbCtStep {L l k : ℕ} (hl : l ≤ L) (h4 : 4 ≤ l) (hK : 6 * k + 20 ≤ K) (numCol a : ℕ)
    {la ka : ℕ} (hla : l - 4 ≤ la) (hka : ka ≤ 3 * k + 10) :
    mbCtStep (metaHE K) (metaConsts L) numCol a (metaData L) (l, k) ((la, ka), (la, ka)) =
      some ((l - 4, 3 * k + 10), (l - 4, 3 * k + 10)) := by
  unfold mbCtStep
  rw [opt_bind (meta_depth3 hl h4 hK numCol a)]
  simp only
  rw [opt_bind (meta_mul (l'' := l - 4) (k'' := 3 * k + 10) _ (by omega) (by omega) (by omega)
      (by omega)),
    opt_bind (meta_add (l'' := l - 4) (k'' := 3 * k + 10) (by omega) (by omega) (by omega)),
    opt_bind (meta_mul (l'' := l - 4) (k'' := 3 * k + 10) _ (by omega) (by omega) (by omega)
      (by omega)),
    opt_bind (meta_add (l'' := l - 4) (k'' := 3 * k + 10) (by omega) (by omega) (by omega)),
    opt_bind (meta_add (l'' := l - 4) (k'' := 3 * k + 10) (by omega) (by omega) (by omega)),
    opt_bind (meta_add (l'' := l - 4) (k'' := 3 * k + 10) (by omega) (by omega) (by omega))]
  rfl

theorem meta_mbIter {L l k : ℕ} (hl : l ≤ L) (h4 : 4 ≤ l) (hK : 6 * k + 20 ≤ K)
    (numRow numCol numBatch : ℕ) {numCt : ℕ} (hc : 1 ≤ numCt) (a : ℕ) :
    mbIter (metaHE K) (metaConsts L) numRow numCol numBatch numCt (fun _ _ => metaData L)
      (fun _ => ((L, 0), (L, 0))) a ((l, k), (l, k)) =
      some ((l - 4, 3 * k + 10), (l - 4, 3 * k + 10)) := by
  have acc : ∀ c, 1 ≤ c → forUp c (fun _ => mbCtStep (metaHE K) (metaConsts L) numCol a (metaData L)
      (l, k)) ((L, 0), (L, 0)) = some ((l - 4, 3 * k + 10), (l - 4, 3 * k + 10)) := by
    intro c hc
    induction c with
    | zero => omega
    | succ c ih =>
      show (forUp c _ _ >>= _) = _
      rcases Nat.eq_zero_or_pos c with rfl | hc'
      · exact meta_mbCtStep hl h4 hK numCol a (by omega) (by omega)
      · rw [opt_bind (ih hc')]
        exact meta_mbCtStep hl h4 hK numCol a le_rfl le_rfl
  unfold mbIter SumRowVec
  simp only
  rw [opt_bind (acc numCt hc)]
  simp only [metaConsts]
  rw [opt_bind (meta_rotAdd (by omega) _ _ _),
    opt_bind (meta_add (l'' := l - 4) (k'' := 3 * k + 10) (by omega) (by omega) (by omega)),
    opt_bind (meta_pt (l'' := l - 1) (k'' := k + 1) (by omega) (by omega) (by omega) (by omega)),
    opt_bind (meta_pt (l'' := l - 1) (k'' := k + 1) (by omega) (by omega) (by omega) (by omega)),
    opt_bind (meta_add (l'' := l - 1) (k'' := k + 1) (by omega) (by omega) (by omega)),
    opt_bind (meta_rotAdd (by omega) _ _ _),
    opt_bind (meta_add (l'' := l - 4) (k'' := 3 * k + 10) (by omega) (by omega) (by omega))]
  rfl

/-- The scale exponent after `t` iterations. -/
def kAfter (t : ℕ) : ℕ := 5 * (3 ^ t - 1)

theorem kAfter_succ (t : ℕ) : kAfter (t + 1) = 3 * kAfter t + 10 := by
  unfold kAfter
  have : 1 ≤ 3 ^ t := Nat.one_le_pow _ _ (by norm_num)
  rw [pow_succ]
  omega

theorem kAfter_mono {t t' : ℕ} (h : t ≤ t') : kAfter t ≤ kAfter t' := by
  unfold kAfter
  have : 3 ^ t ≤ 3 ^ t' := Nat.pow_le_pow_right (by norm_num) h
  omega

theorem meta_lrTrain {L T : ℕ} (h4 : 4 * T ≤ L) (hK : 2 * kAfter T ≤ K) (numRow numCol : ℕ) :
    lrTrain (metaHE K) (metaConsts L) numRow numCol (metaData L) T (L, 0) (L, 0) =
      some ((L - 4 * T, kAfter T), (L - 4 * T, kAfter T)) := by
  unfold lrTrain
  induction T with
  | zero => rfl
  | succ T ih =>
    have e := kAfter_succ T
    show (forUp T _ _ >>= _) = _
    rw [opt_bind (ih (by omega) (by omega)), meta_lrIter (by omega) (by omega) (by omega)]
    congr 1
    rw [e, show L - 4 * T - 4 = L - 4 * (T + 1) by omega]

theorem meta_mbTrain {L T : ℕ} (h4 : 4 * T ≤ L) (hK : 2 * kAfter T ≤ K)
    (numRow numCol numBatch : ℕ) {numCt : ℕ} (hc : 1 ≤ numCt) :
    mbTrain (metaHE K) (metaConsts L) numRow numCol numBatch numCt (fun _ _ => metaData L)
      (fun _ => ((L, 0), (L, 0))) T (L, 0) (L, 0) =
      some ((L - 4 * T, kAfter T), (L - 4 * T, kAfter T)) := by
  unfold mbTrain
  induction T with
  | zero => rfl
  | succ T ih =>
    have e := kAfter_succ T
    show (forUp T _ _ >>= _) = _
    rw [opt_bind (ih (by omega) (by omega)), meta_mbIter (by omega) (by omega) (by omega) _ _ _ hc]
    congr 1
    rw [e, show L - 4 * T - 4 = L - 4 * (T + 1) by omega]

theorem meta_infer {L l k : ℕ} (hl : l ≤ L) (h3 : 3 ≤ l) (hK : 3 * k + 6 ≤ K) (numFeature : ℕ) :
    infer (metaHE K) (metaConsts L) numFeature (L, 0) (l, k) = some (l - 3, 3 * k + 6) := by
  unfold infer
  simp only [metaConsts]
  rw [opt_bind (meta_mul (l'' := l - 1) (k'' := k + 1) _ (by omega) (by omega) (by omega) (by omega)),
    opt_bind (meta_rotAdd (by omega) _ _ _),
    opt_bind (meta_mul (l'' := l - 2) (k'' := 2 * k + 3) _ (by omega) (by omega) (by omega) (by omega)),
    opt_bind (meta_add (l'' := l - 2) (k'' := 2 * k + 3) (by omega) (by omega) (by omega)),
    opt_bind (meta_pt (l'' := l - 2) (k'' := k + 2) (by omega) (by omega) (by omega) (by omega)),
    opt_bind (meta_mul (l'' := l - 3) (k'' := 3 * k + 6) _ (by omega) (by omega) (by omega) (by omega))]
  exact meta_add (by omega) (by omega) (by omega)

end MK.Lr
