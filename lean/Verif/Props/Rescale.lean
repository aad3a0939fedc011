import Verif.RescaleSpec
import Verif.Props.Linear

/-!
# C17 – C20: rescaling and plaintext multiplication
-/

noncomputable section

namespace MK

open Finset

variable {C : Ctx}

/-! ## How many moduli are dropped -/

/-- The scale after dropping `n` moduli from level `L`, in floating point. -/
def scaleSeq (F : Fl) (q : ℕ → ℕ) (L : ℕ) (s : ℚ) : ℕ → ℚ
  | 0 => s
  | n + 1 => F.rnd (scaleSeq F q L s n / F.rnd (q (L - n)))

/-- `n` is the number of moduli to drop: every step up to `n` keeps the scale at `minScale/2`
or above, the next one would not. -/
structure DropCount (F : Fl) (q : ℕ → ℕ) (minScale s : ℚ) (L n : ℕ) : Prop where
  le : n ≤ L
  keep : ∀ m < n, minScale / 2 ≤ scaleSeq F q L s (m + 1)
  stop : scaleSeq F q L s (n + 1) < minScale / 2

theorem DropCount.unique {F : Fl} {q : ℕ → ℕ} {ms s : ℚ} {L n n' : ℕ} (h : DropCount F q ms s L n)
    (h' : DropCount F q ms s L n') : n = n' := by
  rcases lt_trichotomy n n' with hlt | heq | hgt
  · exact absurd (h'.keep n hlt) (not_le.mpr h.stop)
  · exact heq
  · exact absurd (h.keep n' hgt) (not_le.mpr h'.stop)

theorem loop_ok {prm : CPar C} {ms s : ℚ} {L n : ℕ} (h : DropCount prm.fl C.q ms s L n) :
    ∀ rem nb, rem + nb = L + 1 → nb ≤ n →
      prm.rescaleLoop ms rem (scaleSeq prm.fl C.q L s nb) nb = .ok (scaleSeq prm.fl C.q L s n, n) := by
  intro rem
  induction rem with
  | zero => intro nb h1 h2; have := h.le; omega
  | succ r ih =>
    intro nb h1 h2
    have hr : r = L - nb := by omega
    have hs : prm.fl.rnd (scaleSeq prm.fl C.q L s nb / prm.fl.rnd (C.q r)) =
        scaleSeq prm.fl C.q L s (nb + 1) := by rw [hr]; rfl
    unfold CPar.rescaleLoop
    rw [hs]
    by_cases hlt : nb < n
    · rw [if_pos (h.keep nb hlt)]
      exact ih (nb + 1) (by omega) hlt
    · have : nb = n := by omega
      subst this
      rw [if_neg (not_le.mpr h.stop)]

theorem loop_panics {prm : CPar C} {ms s : ℚ} {L : ℕ}
    (h : ∀ m ≤ L, ms / 2 ≤ scaleSeq prm.fl C.q L s (m + 1)) :
    ∀ rem nb, rem + nb = L + 1 →
      prm.rescaleLoop ms rem (scaleSeq prm.fl C.q L s nb) nb = .error .indexRange := by
  intro rem
  induction rem with
  | zero => intro nb _; rfl
  | succ r ih =>
    intro nb h1
    have hr : r = L - nb := by omega
    have hs : prm.fl.rnd (scaleSeq prm.fl C.q L s nb / prm.fl.rnd (C.q r)) =
        scaleSeq prm.fl C.q L s (nb + 1) := by rw [hr]; rfl
    unfold CPar.rescaleLoop
    rw [hs, if_pos (h nb (by omega))]
    exact ih (nb + 1) (by omega)

theorem exists_dropCount (F : Fl) (q : ℕ → ℕ) (ms s : ℚ) (L : ℕ) :
    (∃ n, DropCount F q ms s L n) ∨ ∀ m ≤ L, ms / 2 ≤ scaleSeq F q L s (m + 1) := by
  classical
  by_cases h : ∃ n, n ≤ L ∧ scaleSeq F q L s (n + 1) < ms / 2
  · left
    have hs := Nat.find_spec h
    refine ⟨Nat.find h, hs.1, fun m hm => ?_, hs.2⟩
    have := Nat.find_min h hm
    rw [not_and] at this
    exact not_lt.mp (this (hm.le.trans hs.1))
  · right
    intro m hm
    by_contra h'
    exact h ⟨m, hm, not_le.mp h'⟩

/-- The number of dropped moduli, including the error cases (nothing is dropped). -/
def RescaleBy (F : Fl) (q : ℕ → ℕ) (ms s : ℚ) (L n : ℕ) : Prop :=
  ((ms ≤ 0 ∨ s = 0 ∨ L = 0) ∧ n = 0) ∨ (0 < ms ∧ s ≠ 0 ∧ 0 < L ∧ DropCount F q ms s L n)

theorem RescaleBy.le {F : Fl} {q : ℕ → ℕ} {ms s : ℚ} {L n : ℕ} (h : RescaleBy F q ms s L n) :
    n ≤ L := by
  rcases h with ⟨_, rfl⟩ | ⟨_, _, _, h⟩
  · omega
  · exact h.le

/-- **C17, errors.** `Rescale` returns an error and changes nothing (evaluator, output value
and output scale) exactly in the three documented cases, in place and out of place. -/
theorem C17_errors {prm : CPar C} {ev : Ev C} {ctIn ctOut : CCt C} {ms : ℚ} {L : ℕ} {b : Bool}
    (same : Bool) (hin : ctIn.ct.Wf L b) (h : ms ≤ 0 ∨ ctIn.scale = 0 ∨ L = 0) (π : Sched) :
    ∃ msg, ev.Rescale prm ctIn ms ctOut same π = .ok (some msg, ev, ctOut) := by
  unfold Ev.Rescale
  by_cases a1 : ms ≤ 0
  · exact ⟨_, by rw [if_pos a1]; rfl⟩
  · rw [if_neg a1]
    by_cases a2 : ctIn.scale = 0
    · exact ⟨_, by rw [if_pos a2]; rfl⟩
    · rw [if_neg a2]
      have a3 : L = 0 := by tauto
      refine ⟨"cannot Rescale: input Ciphertext already at level 0", ?_⟩
      rw [hin.level, Go.ok_bind, if_pos a3]
      rfl

/-- What `Rescale` does: in place (`same`), or into a freshly allocated ciphertext over the
same participants when at least one modulus is dropped. -/
theorem rescale_spec {prm : CPar C} {ev : Ev C} {ctIn ctOut : CCt C} {ms : ℚ} {L n : ℕ}
    {K : Finset String} {F G : String → (i : ℕ) → Row C.N (C.q i)} (same : Bool) (h0 : "0" ∈ K)
    (hin : CtIs ctIn.ct L K F) (hout : CtIs ctOut.ct L K G) (hsame : same = true → G = F)
    (hss : same = true → ctIn.scale = ctOut.scale)
    (hn : RescaleBy prm.fl C.q ms ctIn.scale L n) (hfresh : same = false → 0 < n) (π : Sched) :
    ∃ err pool r, ev.Rescale prm ctIn ms ctOut same π =
        .ok (err, { ev with polyQ := pool }, ⟨r, scaleSeq prm.fl C.q L ctIn.scale n⟩) ∧
      CtIs r (L - n) K (fun id => divSeq (F id) L n) ∧
      (err = none ↔ 0 < ms ∧ ctIn.scale ≠ 0 ∧ 0 < L) := by
  rcases hn with ⟨herr, rfl⟩ | ⟨h1, h2, h3, hd⟩
  · have hs : same = true := by
      cases same
      · exact absurd (hfresh rfl) (lt_irrefl 0)
      · rfl
    have hG := hsame hs
    subst hG
    obtain ⟨msg, e⟩ := C17_errors (prm := prm) (ev := ev) (ctOut := ctOut) same (hin.toWf h0) herr π
    refine ⟨some msg, ev.polyQ, ctOut.ct, ?_, hout, ?_⟩
    · rw [e, scaleSeq, hss hs]
    · simp only [reduceCtorEq, false_iff, not_and, not_lt]
      rintro b1 b2
      rcases herr with a | a | a
      · exact absurd a (not_le.mpr b1)
      · exact absurd a b2
      · omega
  · have hl := loop_ok (prm := prm) hd (L + 1) 0 (by omega) (by omega)
    simp only [scaleSeq] at hl
    have common : ev.Rescale prm ctIn ms ctOut same π = (do
        let (scale, nb) ← prm.rescaleLoop ms (L + 1) ctIn.scale 0
        if 0 < nb then
          let (polyQ, out) ← forEach (π.f 0 ctOut.ct.value.keys)
            (rescaleStep L nb same ctIn.ct) (ev.polyQ, ctOut.ct)
          return (none, { ev with polyQ := polyQ }, ⟨out, scale⟩)
        else
          let _ ← if same then pure ctIn else ctIn.CopyNew (π.f 1 ctIn.ct.value.keys)
          return (none, ev, ⟨ctOut.ct, scale⟩)) := by
      unfold Ev.Rescale
      rw [if_neg (not_le.mpr h1), if_neg h2, (hin.toWf h0).level, Go.ok_bind, if_neg (by omega)]
    by_cases hpos : 0 < n
    · obtain ⟨pool, r, e, hr⟩ := rescaleBody_spec (ctIn := ctIn.ct) same hout (fun _ => hin) hsame hpos
        hd.le (π.isOrder 0 ctOut.ct.value) ev.polyQ
      refine ⟨none, pool, r, ?_, hr, by simp [h1, h2, h3]⟩
      rw [common, hl]
      simp only [Go.ok_bind, if_pos hpos, e, Go.pure_eq]
    · have hn0 : n = 0 := by omega
      subst hn0
      have hs : same = true := by
        cases same
        · exact absurd (hfresh rfl) hpos
        · rfl
      have hG := hsame hs
      subst hG
      refine ⟨none, ev.polyQ, ctOut.ct, ?_, hout, by simp [h1, h2, h3]⟩
      rw [common, hl, hs]
      simp only [Go.ok_bind, lt_irrefl, if_false, if_true, Go.pure_eq]

/-- In-place rescaling. -/
theorem rescaleSelf_spec {prm : CPar C} {ev : Ev C} {ct : CCt C} {ms : ℚ} {L n : ℕ}
    {K : Finset String} {F : String → (i : ℕ) → Row C.N (C.q i)} (h0 : "0" ∈ K)
    (hin : CtIs ct.ct L K F) (hn : RescaleBy prm.fl C.q ms ct.scale L n) (π : Sched) :
    ∃ err pool r, ev.rescaleSelf prm ct ms π =
        .ok (err, { ev with polyQ := pool }, ⟨r, scaleSeq prm.fl C.q L ct.scale n⟩) ∧
      CtIs r (L - n) K (fun id => divSeq (F id) L n) ∧
      (err = none ↔ 0 < ms ∧ ct.scale ≠ 0 ∧ 0 < L) :=
  rescale_spec true h0 hin hin (fun _ => rfl) (fun _ => rfl) hn (by simp) π

/-- When every step would keep the scale large enough, `Rescale` runs off the chain. -/
theorem rescale_panics {prm : CPar C} {ev : Ev C} {ctIn ctOut : CCt C} {ms : ℚ} {L : ℕ} {b : Bool}
    (same : Bool) (hin : ctIn.ct.Wf L b) (h1 : 0 < ms) (h2 : ctIn.scale ≠ 0) (h3 : 0 < L)
    (h : ∀ m ≤ L, ms / 2 ≤ scaleSeq prm.fl C.q L ctIn.scale (m + 1)) (π : Sched) :
    (ev.Rescale prm ctIn ms ctOut same π).panics := by
  have hl := loop_panics (prm := prm) h (L + 1) 0 (by omega)
  simp only [scaleSeq] at hl
  unfold Ev.Rescale
  rw [if_neg (not_le.mpr h1), if_neg h2, hin.level, Go.ok_bind, if_neg (by omega), hl]
  exact ⟨_, rfl⟩

/-! ## C17 -/

/-- **C17, count.** In all other cases in-place `Rescale` either drops exactly the `n` moduli
determined by the scale, where `n` is the least number such that one more division would fall
below `minScale/2`, and returns level `L - n ≥ 0` and the scale after `n` divisions (at least
`minScale/2` if `n > 0`); or no such `n ≤ L` exists and it panics. -/
theorem C17_count {prm : CPar C} {ev : Ev C} {ct : CCt C} {ms : ℚ} {L : ℕ}
    (h : ct.ct.Wf L false) (h1 : 0 < ms) (h2 : ct.scale ≠ 0) (h3 : 0 < L) (π : Sched) :
    (∃ n, DropCount prm.fl C.q ms ct.scale L n ∧ ∃ ev' r,
      ev.rescaleSelf prm ct ms π = .ok (none, ev', r) ∧ r.ct.Wf (L - n) false ∧
      r.ct.parties = ct.ct.parties ∧ r.scale = scaleSeq prm.fl C.q L ct.scale n ∧
      (0 < n → ms / 2 ≤ r.scale)) ∨
    ((∀ m ≤ L, ms / 2 ≤ scaleSeq prm.fl C.q L ct.scale (m + 1)) ∧
      (ev.rescaleSelf prm ct ms π).panics) := by
  rcases exists_dropCount prm.fl C.q ms ct.scale L with ⟨n, hn⟩ | hp
  · left
    have hc := h.ctIs
    rw [← insert_parties h] at hc
    obtain ⟨err, pool, r, e, hr, he⟩ := rescaleSelf_spec (ev := ev) (mem_insert_self _ _) hc
      (Or.inr ⟨h1, h2, h3, hn⟩) π
    have : err = none := he.mpr ⟨h1, h2, h3⟩
    subst this
    refine ⟨n, hn, _, _, e, hr.toWf (mem_insert_self _ _), hr.parties (zero_notMem_parties _), rfl,
      fun hpos => ?_⟩
    obtain ⟨m, rfl⟩ : ∃ m, n = m + 1 := ⟨n - 1, by omega⟩
    exact hn.keep m (by omega)
  · exact Or.inr ⟨hp, rescale_panics true h h1 h2 h3 hp π⟩

/-- The scale after `n` divisions is `s / (q_L ⋯ q_{L-n+1})` up to the rounding of `2n`
floating point operations. -/
theorem C17_scale {F : Fl} (hF : F.Ok) {q : ℕ → ℕ} (hq : ∀ i, 0 < q i) (L : ℕ) {s : ℚ} (hs : 0 < s)
    (n : ℕ) :
    s / (∏ m ∈ range n, (q (L - m) : ℚ)) * ((1 - 1 / 2 ^ 53) / (1 + 1 / 2 ^ 53)) ^ n ≤
        scaleSeq F q L s n ∧
      scaleSeq F q L s n ≤
        s / (∏ m ∈ range n, (q (L - m) : ℚ)) * ((1 + 1 / 2 ^ 53) / (1 - 1 / 2 ^ 53)) ^ n := by
  induction n with
  | zero => simp [scaleSeq]
  | succ n ih =>
    have hQ : (0 : ℚ) < ∏ m ∈ range n, (q (L - m) : ℚ) :=
      prod_pos fun m _ => by exact_mod_cast hq _
    have hqn : (0 : ℚ) < q (L - n) := by exact_mod_cast hq _
    have hb := hF.bounds hqn.le
    have hbp := hF.pos hqn
    have hu : (0 : ℚ) < 1 - 1 / 2 ^ 53 := by norm_num
    have hv : (0 : ℚ) < 1 + 1 / 2 ^ 53 := by norm_num
    have hsn : 0 < scaleSeq F q L s n := by
      refine lt_of_lt_of_le ?_ ih.1
      exact mul_pos (div_pos hs hQ) (pow_pos (div_pos hu hv) _)
    have hc := hF.bounds (div_pos hsn hbp).le
    simp only [scaleSeq, prod_range_succ, pow_succ]
    constructor
    · refine le_trans ?_ hc.1
      have h1 : s / (∏ m ∈ range n, (q (L - m) : ℚ)) * ((1 - 1 / 2 ^ 53) / (1 + 1 / 2 ^ 53)) ^ n /
          (q (L - n) * (1 + 1 / 2 ^ 53)) ≤ scaleSeq F q L s n / F.rnd (q (L - n)) :=
        div_le_div₀ hsn.le ih.1 hbp hb.2
      calc _ = s / (∏ m ∈ range n, (q (L - m) : ℚ)) * ((1 - 1 / 2 ^ 53) / (1 + 1 / 2 ^ 53)) ^ n /
          (q (L - n) * (1 + 1 / 2 ^ 53)) * (1 - 1 / 2 ^ 53) := by field_simp
        _ ≤ _ := mul_le_mul_of_nonneg_right h1 hu.le
    · refine le_trans hc.2 ?_
      have h1 : scaleSeq F q L s n / F.rnd (q (L - n)) ≤
          s / (∏ m ∈ range n, (q (L - m) : ℚ)) * ((1 + 1 / 2 ^ 53) / (1 - 1 / 2 ^ 53)) ^ n /
          (q (L - n) * (1 - 1 / 2 ^ 53)) :=
        div_le_div₀ (le_trans hsn.le ih.2) ih.2 (mul_pos hqn hu) hb.1
      calc _ ≤ s / (∏ m ∈ range n, (q (L - m) : ℚ)) * ((1 + 1 / 2 ^ 53) / (1 - 1 / 2 ^ 53)) ^ n /
          (q (L - n) * (1 - 1 / 2 ^ 53)) * (1 + 1 / 2 ^ 53) := mul_le_mul_of_nonneg_right h1 hv.le
        _ = _ := by field_simp

/-- With exact arithmetic the scale is exactly the quotient. -/
theorem C17_scale_exact (q : ℕ → ℕ) (L : ℕ) (s : ℚ) (n : ℕ) :
    scaleSeq Fl.exact q L s n = s / ∏ m ∈ range n, (q (L - m) : ℚ) := by
  induction n with
  | zero => simp [scaleSeq]
  | succ n ih =>
    have : scaleSeq Fl.exact q L s (n + 1) = scaleSeq Fl.exact q L s n / (q (L - n) : ℚ) := rfl
    rw [this, ih, prod_range_succ, div_div]

/-! ## C18 -/

/-- One division. -/
theorem div_phase (hC : C.Good) {L k : ℕ} (hL : L < C.nQ) {S : Finset String}
    (F : String → (i : ℕ) → Row C.N (C.q i)) {s : String → Nega C.N ℤ} {T : ℤ}
    (hT : ∀ id ∈ S, Nega.Bdd (s id) T) :
    ∃ e : Nega C.N ℤ, Nega.Bdd e (((C.q (L - k) / 2 : ℕ) : ℤ) * (1 + S.card * C.N * T)) ∧
      (∀ i < L - k, ((C.q (L - k) : ℕ) : Nega C.N (ZMod (C.q i))) *
          ringPhase S (fun id i => ⟨divSeq (F id) L (k + 1) i⟩) s i =
        ringPhase S (fun id i => ⟨divSeq (F id) L k i⟩) s i + Nega.red (C.q i) e) ∧
      ringPhase S (fun id i => ⟨divSeq (F id) L k i⟩) s (L - k) + Nega.red (C.q (L - k)) e = 0 := by
  set c : String → Nega C.N ℤ := fun id => ⟨fun j => (divSeq (F id) L k (L - k) j).valMinAbs⟩ with hc
  have hcb : ∀ id, Nega.Bdd (c id) ((C.q (L - k) / 2 : ℕ) : ℤ) := by
    intro id j
    have : NeZero (C.q (L - k)) := ⟨(hC.posQ _).ne'⟩
    rw [← Int.natCast_natAbs]
    exact_mod_cast ZMod.natAbs_valMinAbs_le _
  have hmul : ∀ id i, i < L - k → ((C.q (L - k) : ℕ) : Nega C.N (ZMod (C.q i))) *
      ⟨divSeq (F id) L (k + 1) i⟩ = ⟨divSeq (F id) L k i⟩ - Nega.red (C.q i) (c id) := by
    intro id i hi
    ext j
    rw [Nega.coeff_natCast_mul, Nega.coeff_sub, Nega.coeff_red]
    simp only [divSeq, hc]
    have hcop : (C.q (L - k)).Coprime (C.q i) := hC.copQ _ _ (by omega) (by omega) (by omega)
    have hinv := ZMod.coe_mul_inv_eq_one (C.q (L - k)) hcop
    rw [mul_comm, mul_assoc, mul_comm (_)⁻¹, hinv, mul_one]
  refine ⟨-(c "0" + ∑ id ∈ S, c id * s id), ?_, ?_, ?_⟩
  · refine Nega.Bdd.neg ?_
    have h1 : Nega.Bdd (∑ id ∈ S, c id * s id)
        (S.card * (C.N * (((C.q (L - k) / 2 : ℕ) : ℤ) * T))) := by
      refine Nega.Bdd.sum_const S _ fun id hid => ?_
      have := (hcb id).mul (hT id hid)
      refine this.mono (le_of_eq ?_)
      ring
    refine ((hcb "0").add h1).mono (le_of_eq ?_)
    ring
  · intro i hi
    unfold ringPhase
    rw [mul_add, hmul _ i hi, mul_sum]
    have : ∀ id ∈ S, ((C.q (L - k) : ℕ) : Nega C.N (ZMod (C.q i))) *
        (⟨divSeq (F id) L (k + 1) i⟩ * Nega.red (C.q i) (s id)) =
        ⟨divSeq (F id) L k i⟩ * Nega.red (C.q i) (s id) - Nega.red (C.q i) (c id * s id) := by
      intro id _
      rw [← mul_assoc, hmul _ i hi, sub_mul, map_mul]
    rw [sum_congr rfl this, sum_sub_distrib, map_neg, map_add, map_sum]
    ring
  · have hred : ∀ id, Nega.red (C.q (L - k)) (c id) = ⟨divSeq (F id) L k (L - k)⟩ := by
      intro id
      ext j
      rw [Nega.coeff_red]
      exact ZMod.coe_valMinAbs _
    unfold ringPhase
    rw [map_neg, map_add, map_sum, hred, add_neg_eq_zero]
    congr 1
    refine sum_congr rfl fun id _ => ?_
    rw [map_mul, hred]

/-- A polynomial that vanishes modulo `q` is a multiple of `q`. -/
theorem red_eq_zero {q : ℕ} {m : Nega C.N ℤ} (h : Nega.red q m = 0) :
    ∃ m' : Nega C.N ℤ, ((q : ℕ) : Nega C.N ℤ) * m' = m := by
  have : ∀ j, (q : ℤ) ∣ m.coeff j := fun j => by
    rw [← ZMod.intCast_zmod_eq_zero_iff_dvd, ← Nega.coeff_red, h, Nega.coeff_zero]
  choose c hc using this
  refine ⟨⟨c⟩, ?_⟩
  ext j
  rw [Nega.coeff_natCast_mul, hc j]

/-- Repeated division. -/
theorem divs_phase (hC : C.Good) {L : ℕ} (hL : L < C.nQ) {S : Finset String}
    (F : String → (i : ℕ) → Row C.N (C.q i)) {s : String → Nega C.N ℤ} {T : ℤ}
    (hT : ∀ id ∈ S, Nega.Bdd (s id) T) :
    ∃ e : ℕ → Nega C.N ℤ,
      (∀ k, Nega.Bdd (e k) (((C.q (L - k) / 2 : ℕ) : ℤ) * (1 + S.card * C.N * T))) ∧
      ∀ n ≤ L, (∀ i ≤ L - n,
        ((∏ m ∈ range n, C.q (L - m) : ℕ) : Nega C.N (ZMod (C.q i))) *
          ringPhase S (fun id i => ⟨divSeq (F id) L n i⟩) s i =
        ringPhase S (fun id i => ⟨F id i⟩) s i + Nega.red (C.q i)
          (∑ k ∈ range n, ((∏ m ∈ range k, C.q (L - m) : ℕ) : Nega C.N ℤ) * e k)) ∧
        ∀ m : Nega C.N ℤ, (∀ i ≤ L, ringPhase S (fun id i => ⟨F id i⟩) s i = Nega.red (C.q i) m) →
          ∃ m' : Nega C.N ℤ, ((∏ m ∈ range n, C.q (L - m) : ℕ) : Nega C.N ℤ) * m' =
            m + ∑ k ∈ range n, ((∏ m ∈ range k, C.q (L - m) : ℕ) : Nega C.N ℤ) * e k ∧
          ∀ i ≤ L - n, ringPhase S (fun id i => ⟨divSeq (F id) L n i⟩) s i = Nega.red (C.q i) m' := by
  choose e he1 he2 he3 using fun k => div_phase hC (k := k) hL F hT
  refine ⟨e, he1, fun n => ?_⟩
  induction n with
  | zero =>
    intro _
    exact ⟨fun i _ => by simp [divSeq], fun m hm => ⟨m, by simp, hm⟩⟩
  | succ n ih =>
    intro hn
    obtain ⟨ih1, ih2⟩ := ih (by omega)
    refine ⟨fun i hi => ?_, fun m hm => ?_⟩
    · rw [prod_range_succ, Nat.cast_mul, mul_assoc, he2 n i (by omega), mul_add, ih1 i (by omega),
        sum_range_succ, map_add, map_mul, map_natCast, add_assoc]
    · obtain ⟨m1, h1, h2⟩ := ih2 m hm
      have h3 := he3 n
      rw [h2 (L - n) le_rfl, ← map_add] at h3
      obtain ⟨m2, h4⟩ := red_eq_zero h3
      refine ⟨m2, ?_, fun i hi => ?_⟩
      · rw [prod_range_succ, Nat.cast_mul, mul_assoc, h4, mul_add, h1, sum_range_succ, add_assoc]
      · have h5 := he2 n i (by omega)
        rw [h2 i (by omega), ← map_add, ← h4, map_mul, map_natCast] at h5
        have hcop : (C.q (L - n)).Coprime (C.q i) := hC.copQ _ _ (by omega) (by omega) (by omega)
        have hinv := ZMod.coe_mul_inv_eq_one (C.q (L - n)) hcop
        ext j
        have h6 := congrArg (fun a : Nega C.N (ZMod (C.q i)) => a.coeff j) h5
        simp only [Nega.coeff_natCast_mul] at h6
        have h7 := congrArg (fun a => (C.q (L - n) : ZMod (C.q i))⁻¹ * a) h6
        simp only [← mul_assoc] at h7
        rwa [mul_comm (_)⁻¹, hinv, one_mul, one_mul] at h7

/-- **C18.** Rescaling divides the plaintext with bounded error: when `n` moduli are dropped
from a ciphertext of `k` parties whose secrets are bounded by `T` (`T = 1` for ternary keys),
`(q_L ⋯ q_{L-n+1}) · phase(out) = phase(in) + Σ_k (q_L ⋯ q_{L-k+1}) e_k` with integer polynomials
`|e_k| ≤ (q_{L-k}/2)(1 + kNT)`, modulo every remaining modulus. If the input carries the integer
polynomial `m`, the output carries an `m'` for which this is an equation of integer
polynomials: `m'` is `m / (q_L ⋯ q_{L-n+1})` rounded. -/
theorem C18_Rescale (hC : C.Good) {prm : CPar C} {ev : Ev C} {ct : CCt C} {ms : ℚ} {L n : ℕ}
    (h : ct.ct.Wf L false) (hL : L < C.nQ) (h1 : 0 < ms) (h2 : ct.scale ≠ 0) (h3 : 0 < L)
    (hn : DropCount prm.fl C.q ms ct.scale L n) {s : String → Nega C.N ℤ} {T : ℤ}
    (hT : ∀ id ∈ ct.ct.parties, Nega.Bdd (s id) T) (π : Sched) :
    ∃ ev' r, ev.rescaleSelf prm ct ms π = .ok (none, ev', r) ∧ r.ct.Wf (L - n) false ∧
      ∃ e : ℕ → Nega C.N ℤ,
        (∀ k < n, Nega.Bdd (e k) (((C.q (L - k) / 2 : ℕ) : ℤ) *
          (1 + ct.ct.parties.card * C.N * T))) ∧
        (∀ i ≤ L - n, ((∏ m ∈ range n, C.q (L - m) : ℕ) : Nega C.N (ZMod (C.q i))) * r.ct.phase s i =
          ct.ct.phase s i + Nega.red (C.q i)
            (∑ k ∈ range n, ((∏ m ∈ range k, C.q (L - m) : ℕ) : Nega C.N ℤ) * e k)) ∧
        ∀ m, ct.ct.Carries s L m → ∃ m', r.ct.Carries s (L - n) m' ∧
          ((∏ m ∈ range n, C.q (L - m) : ℕ) : Nega C.N ℤ) * m' =
            m + ∑ k ∈ range n, ((∏ m ∈ range k, C.q (L - m) : ℕ) : Nega C.N ℤ) * e k := by
  have hc := h.ctIs
  rw [← insert_parties h] at hc
  obtain ⟨err, pool, r, e, hr, he⟩ := rescaleSelf_spec (ev := ev) (mem_insert_self _ _) hc
    (Or.inr ⟨h1, h2, h3, hn⟩) π
  have : err = none := he.mpr ⟨h1, h2, h3⟩
  subst this
  obtain ⟨er, hb, hph⟩ := divs_phase hC hL (S := ct.ct.parties) ct.ct.rowsOf hT
  have hin : ∀ i, ringPhase ct.ct.parties (fun id i => ⟨ct.ct.rowsOf id i⟩) s i = ct.ct.phase s i := by
    intro i
    rw [phase_eq_ringPhase h.zero_mem]
    exact ringPhase_congr (h.comp_eq _ _).symm fun id _ => (h.comp_eq _ _).symm
  have hout : ∀ i ≤ L - n, r.phase s i =
      ringPhase ct.ct.parties (fun id i => ⟨divSeq (ct.ct.rowsOf id) L n i⟩) s i := fun i hi =>
    CtIs.phase (F := fun id i => ⟨divSeq (ct.ct.rowsOf id) L n i⟩) (zero_notMem_parties _) hr s hi
  refine ⟨_, _, e, hr.toWf (mem_insert_self _ _), er, fun k _ => hb k, fun i hi => ?_, fun m hm => ?_⟩
  · rw [hout i hi, (hph n hn.le).1 i hi, hin]
  · obtain ⟨m', h1, h2⟩ := (hph n hn.le).2 m fun i hi => (hin i).trans (hm i hi)
    exact ⟨m', fun i hi => (hout i hi).trans (h2 i hi), h1⟩

/-! ## C19 -/

/-- `RescaleNew` when nothing has to be dropped: the fresh, all-zero ciphertext is returned. -/
theorem rescaleNew_zero {prm : CPar C} {ev : Ev C} {ct : CCt C} {t : ℚ} {L : ℕ}
    (h : ct.ct.Wf L false) (h1 : 0 < t) (h2 : ct.scale ≠ 0) (h3 : 0 < L)
    (hn : DropCount prm.fl C.q t ct.scale L 0) (π : Sched) :
    ∃ r, ev.RescaleNew prm ct t π = .ok (none, ev, r) ∧ r.scale = ct.scale ∧
      CtIs r.ct L (insert "0" ct.ct.parties) (fun _ _ => 0) := by
  obtain ⟨ids, e0, _, m0⟩ := ct.ct.IDSet_parties (π.isOrder 0 ct.ct.value)
  have hnew := new_ctIs' (C := C) L (π.isOrder 1 ids) m0
  obtain ⟨cp, ecp, _⟩ := ct.ct.CopyNew_spec h.zero_mem ((π.sub 2).isOrder 1 ct.ct.value)
  have hl := loop_ok (prm := prm) hn (L + 1) 0 (by omega) (by omega)
  simp only [scaleSeq] at hl
  refine ⟨⟨Ct.new L (π.f 1 (GoMap.keys ids)), ct.scale⟩, ?_, rfl, hnew⟩
  unfold Ev.RescaleNew Ev.Rescale
  simp only [e0, h.level, Go.ok_bind]
  rw [if_neg (not_le.mpr h1), if_neg h2, if_neg (by omega), hl]
  simp only [Go.ok_bind, lt_irrefl, if_false, Bool.false_eq_true, CCt.CopyNew, ecp, Go.pure_eq,
    CCt.new]

/-- **C19 (negation).** When the scale is already small enough, `RescaleNew` reports success and
keeps scale, level and participants, but the result decrypts to zero under every key; it
decrypts like its input only if that is zero too. -/
theorem C19_RescaleNew_loses_input {prm : CPar C} {ev : Ev C} {ct : CCt C} {t : ℚ} {L : ℕ}
    (h : ct.ct.Wf L false) (h1 : 0 < t) (h2 : ct.scale ≠ 0) (h3 : 0 < L)
    (hn : DropCount prm.fl C.q t ct.scale L 0) (π : Sched) :
    ∃ r, ev.RescaleNew prm ct t π = .ok (none, ev, r) ∧ r.scale = ct.scale ∧
      r.ct.Wf L false ∧ r.ct.parties = ct.ct.parties ∧
      (∀ s, ∀ i ≤ L, r.ct.phase s i = 0) ∧
      ∀ s, ∀ i ≤ L, ct.ct.phase s i ≠ 0 → r.ct.phase s i ≠ ct.ct.phase s i := by
  obtain ⟨r, e, hs, hr⟩ := rescaleNew_zero (ev := ev) h h1 h2 h3 hn π
  have hz : ∀ s, ∀ i ≤ L, r.ct.phase s i = 0 := by
    intro s i hi
    rw [CtIs.phase (F := fun _ _ => 0) (zero_notMem_parties _) hr s hi]
    simp [ringPhase]
  exact ⟨r, e, hs, hr.toWf (mem_insert_self _ _), hr.parties (zero_notMem_parties _), hz,
    fun s i hi hne => by rw [hz s i hi]; exact hne.symm⟩

/-- When at least one modulus is dropped `RescaleNew` returns what in-place `Rescale` computes,
and its argument keeps its value. -/
theorem C19_RescaleNew_drops {prm : CPar C} {ev : Ev C} {ct : CCt C} {t : ℚ} {L n : ℕ}
    (h : ct.ct.Wf L false) (h1 : 0 < t) (h2 : ct.scale ≠ 0) (h3 : 0 < L)
    (hn : DropCount prm.fl C.q t ct.scale L n) (hpos : 0 < n) (π π' : Sched) :
    ∃ ev' r ev'' r', ev.RescaleNew prm ct t π = .ok (none, ev', r) ∧
      ev.rescaleSelf prm ct t π' = .ok (none, ev'', r') ∧ r.ct.Same r'.ct ∧ r.scale = r'.scale := by
  have hc := h.ctIs
  rw [← insert_parties h] at hc
  obtain ⟨err', pool', r', e', hr', he'⟩ := rescaleSelf_spec (ev := ev) (mem_insert_self _ _) hc
    (Or.inr ⟨h1, h2, h3, hn⟩) π'
  obtain ⟨ids, e0, _, m0⟩ := ct.ct.IDSet_parties (π.isOrder 0 ct.ct.value)
  have hnew := new_ctIs' (C := C) L (π.isOrder 1 ids) m0
  obtain ⟨err, pool, r, e, hr, he⟩ := rescale_spec (ev := ev) (ctOut := CCt.new L
    (π.f 1 (GoMap.keys ids)) ct.scale) false (mem_insert_self _ _) hc hnew (by simp) (by simp)
    (Or.inr ⟨h1, h2, h3, hn⟩) (fun _ => hpos) (π.sub 2)
  have a1 : err = none := he.mpr ⟨h1, h2, h3⟩
  have a2 : err' = none := he'.mpr ⟨h1, h2, h3⟩
  subst a1 a2
  refine ⟨{ ev with polyQ := pool }, ⟨r, scaleSeq prm.fl C.q L ct.scale n⟩, _, _, ?_, e',
    hr.same hr', rfl⟩
  unfold Ev.RescaleNew
  simp only [e0, h.level, Go.ok_bind, e]

/-! ## C20 -/

/-- The ring element behind a coefficient-form polynomial. -/
def RPoly.elem {N : ℕ} {m : ℕ → ℕ} (p : RPoly N m) (i : ℕ) : Nega N (ZMod (m i)) := ⟨p.row i⟩

theorem mulPtxtCore_spec (hC : C.Good) {prm : CPar C} {ev : Ev C} {ct : CCt C} {L : ℕ}
    (h : ct.ct.Wf L false) (pt : RQ C) (ptScale : ℚ) (π : Sched) :
    ∃ pool r, ev.mulPtxtCore prm ct pt ptScale π =
        .ok ({ ev with polyQ := pool }, ⟨r, prm.fl.rnd (ct.scale * ptScale)⟩) ∧
      CtIs r L (insert "0" ct.ct.parties) fun id i =>
        ((⟨ct.ct.rowsOf id i⟩ : Nega C.N (ZMod (C.q i))) * pt.elem i).coeff := by
  obtain ⟨ids, e0, _, m0⟩ := ct.ct.IDSet_parties (π.isOrder 0 ct.ct.value)
  have hnew := new_ctIs' (C := C) L (π.isOrder 1 ids) m0
  have hc := h.ctIs
  rw [← insert_parties h] at hc
  set polyQ : RQ C := (pt.nttLvl C.nttQ L ev.polyQ).mformLvl L (pt.nttLvl C.nttQ L ev.polyQ) with hpq
  have hoK : (π.f 2 ct.ct.value.keys).toFinset = insert "0" ct.ct.parties := by
    ext v; rw [List.mem_toFinset, (π.isOrder 2 ct.ct.value).mem, hc.mem]
  obtain ⟨r, e, hr⟩ := forEach_inv (π.f 2 ct.ct.value.keys) ((π.isOrder 2 ct.ct.value).nodup h.wf)
    (mulPtxtStep L ct.ct polyQ) (fun done s => CtIs s L (insert "0" ct.ct.parties) fun id i =>
      if id ∈ done then ((⟨ct.ct.rowsOf id i⟩ : Nega C.N (ZMod (C.q i))) * pt.elem i).coeff else 0)
    (Ct.new L (π.f 1 (GoMap.keys ids)))
    (hnew.congr fun id _ i _ => by simp) (by
      rintro done a s hnd ha hI
      have haK : a ∈ insert "0" ct.ct.parties := by rw [← hoK]; simpa using ha
      obtain ⟨p, hp, _, _, hrow⟩ := hc.get haK
      obtain ⟨o, ho, lo, no, _⟩ := hI.get haK
      set w : RQ C := RPoly.invNttLvl C.nttQ L
        (RPoly.mulMontLvl L (p.nttLvl C.nttQ L o) polyQ (p.nttLvl C.nttQ L o))
        (RPoly.mulMontLvl L (p.nttLvl C.nttQ L o) polyQ (p.nttLvl C.nttQ L o)) with hw
      refine ⟨⟨s.value.set a w⟩, ?_, ?_⟩
      · simp only [mulPtxtStep, GoMap.deref_of_get? hp, GoMap.deref_of_get? ho, Go.ok_bind,
          Go.pure_eq, hw]
      · refine hI.set (p := w) haK lo no ?_ ?_
        · intro i hi
          simp only [mem_insert, true_or, if_true]
          have hq : polyQ.row i = fun j => (montR : ZMod (C.q i)) * (C.nttQ.equiv i (pt.elem i)) j := by
            rw [hpq, RPoly.mformLvl, RPoly.write_row_of_le _ _ hi]
            simp only [RPoly.nttLvl]
            rw [RPoly.write_row_of_le _ _ hi]
            rfl
          rw [hw]
          simp only [RPoly.invNttLvl, RPoly.mulMontLvl, RPoly.nttLvl]
          rw [RPoly.write_row_of_le _ _ hi, RPoly.write_row_of_le _ _ hi]
          rw [RPoly.write_row_of_le _ _ hi, hq, hrow i hi]
          congr 1
          rw [RingEquiv.symm_apply_eq, map_mul]
          funext j
          rw [RPoly.mred_mont' (hC.oddQ i)]
          rfl
        · intro id _ hne i _
          simp [hne])
  refine ⟨polyQ, r, ?_, hr.congr fun id hid i _ => by rw [if_pos (by rw [hoK]; exact hid)]⟩
  unfold Ev.mulPtxtCore
  simp only [e0, h.level, Go.ok_bind, CCt.new, ← hpq, e, Go.pure_eq]

theorem ptxt_ringPhase {ct : Ct C} {L : ℕ} (h : ct.Wf L false) (pt : RQ C)
    (s : String → Nega C.N ℤ) (i : ℕ) :
    ringPhase ct.parties (fun id i => (⟨ct.rowsOf id i⟩ : Nega C.N (ZMod (C.q i))) * pt.elem i) s i =
      ct.phase s i * pt.elem i := by
  rw [phase_eq_ringPhase h.zero_mem]
  unfold ringPhase
  rw [add_mul, sum_mul, h.comp_eq]
  congr 1
  refine sum_congr rfl fun id _ => ?_
  rw [h.comp_eq]
  ring

/-- **C20.** Before rescaling, `MulPtxtNew` holds the product: the phase at every level is
`phase(ct) * pt`, the scale is the (rounded) product of scales, and level, form and participants
are those of `ct`. -/
theorem C20_MulPtxt (hC : C.Good) {prm : CPar C} {ev : Ev C} {ct : CCt C} {L : ℕ}
    (h : ct.ct.Wf L false) (pt : RQ C) (ptScale : ℚ) (π : Sched) :
    ∃ ev' r, ev.mulPtxtCore prm ct pt ptScale π = .ok (ev', r) ∧ r.ct.Wf L false ∧
      r.ct.parties = ct.ct.parties ∧ r.scale = prm.fl.rnd (ct.scale * ptScale) ∧
      ∀ s, ∀ i ≤ L, r.ct.phase s i = ct.ct.phase s i * pt.elem i := by
  obtain ⟨pool, r, e, hr⟩ := mulPtxtCore_spec hC (prm := prm) (ev := ev) h pt ptScale π
  refine ⟨_, _, e, hr.toWf (mem_insert_self _ _), hr.parties (zero_notMem_parties _), rfl,
    fun s i hi => ?_⟩
  rw [CtIs.phase (F := fun id i => (⟨ct.ct.rowsOf id i⟩ : Nega C.N (ZMod (C.q i))) * pt.elem i)
    (zero_notMem_parties _) hr s hi, ptxt_ringPhase h]

/-- **C20, the whole call.** With `n` moduli dropped by the final rescaling (`n = 0` if
`Rescale` reports an error, which `MulPtxtNew` ignores), the result times the dropped moduli is
the product up to the rescaling error; as integer polynomials, if the operands are given as such. -/
theorem C20_MulPtxtNew (hC : C.Good) {prm : CPar C} {ev : Ev C} {ct : CCt C} {L n : ℕ}
    (h : ct.ct.Wf L false) (hL : L < C.nQ) (pt : RQ C) (ptScale : ℚ)
    (hn : RescaleBy prm.fl C.q prm.scale (prm.fl.rnd (ct.scale * ptScale)) L n)
    {s : String → Nega C.N ℤ} {T : ℤ} (hT : ∀ id ∈ ct.ct.parties, Nega.Bdd (s id) T) (π : Sched) :
    ∃ ev' r, ev.MulPtxtNew prm ct pt ptScale π = .ok (ev', r) ∧ r.ct.Wf (L - n) false ∧
      r.ct.parties = ct.ct.parties ∧
      r.scale = scaleSeq prm.fl C.q L (prm.fl.rnd (ct.scale * ptScale)) n ∧
      ∃ e : ℕ → Nega C.N ℤ,
        (∀ k < n, Nega.Bdd (e k) (((C.q (L - k) / 2 : ℕ) : ℤ) *
          (1 + ct.ct.parties.card * C.N * T))) ∧
        (∀ i ≤ L - n, ((∏ m ∈ range n, C.q (L - m) : ℕ) : Nega C.N (ZMod (C.q i))) * r.ct.phase s i =
          ct.ct.phase s i * pt.elem i + Nega.red (C.q i)
            (∑ k ∈ range n, ((∏ m ∈ range k, C.q (L - m) : ℕ) : Nega C.N ℤ) * e k)) ∧
        ∀ m mp, ct.ct.Carries s L m → (∀ i ≤ L, pt.elem i = Nega.red (C.q i) mp) →
          ∃ m', r.ct.Carries s (L - n) m' ∧
          ((∏ m ∈ range n, C.q (L - m) : ℕ) : Nega C.N ℤ) * m' =
            m * mp + ∑ k ∈ range n, ((∏ m ∈ range k, C.q (L - m) : ℕ) : Nega C.N ℤ) * e k := by
  obtain ⟨pool, r0, e0, hr0⟩ := mulPtxtCore_spec hC (prm := prm) (ev := ev) h pt ptScale (π.sub 0)
  obtain ⟨err, pool', r, e1, hr, _⟩ := rescaleSelf_spec (prm := prm) (ms := prm.scale)
    (ct := ⟨r0, prm.fl.rnd (ct.scale * ptScale)⟩) (ev := { ev with polyQ := pool })
    (mem_insert_self _ _) hr0 hn (π.sub 1)
  obtain ⟨er, hb, hph⟩ := divs_phase hC hL (S := ct.ct.parties) (fun id i =>
    ((⟨ct.ct.rowsOf id i⟩ : Nega C.N (ZMod (C.q i))) * pt.elem i).coeff) hT
  have hout : ∀ i ≤ L - n, r.phase s i = ringPhase ct.ct.parties (fun id i => ⟨divSeq (fun i =>
      ((⟨ct.ct.rowsOf id i⟩ : Nega C.N (ZMod (C.q i))) * pt.elem i).coeff) L n i⟩) s i := fun i hi =>
    CtIs.phase (F := fun id i => ⟨divSeq (fun i =>
      ((⟨ct.ct.rowsOf id i⟩ : Nega C.N (ZMod (C.q i))) * pt.elem i).coeff) L n i⟩)
      (zero_notMem_parties _) hr s hi
  refine ⟨{ ev with polyQ := pool' }, ⟨r, scaleSeq prm.fl C.q L (prm.fl.rnd (ct.scale * ptScale)) n⟩,
    ?_, hr.toWf (mem_insert_self _ _), hr.parties (zero_notMem_parties _), rfl, er,
    fun k _ => hb k, fun i hi => ?_, fun m mp hm hmp => ?_⟩
  · unfold Ev.MulPtxtNew
    simp only [e0, Go.ok_bind, e1, Go.pure_eq]
  · rw [hout i hi, (hph n hn.le).1 i hi, ← ptxt_ringPhase h]
  · obtain ⟨m', h1, h2⟩ := (hph n hn.le).2 (m * mp) fun i hi => by
      rw [map_mul, ← hm i hi, ← hmp i hi, ← ptxt_ringPhase h]
    exact ⟨m', fun i hi => (hout i hi).trans (h2 i hi), h1⟩

end MK
