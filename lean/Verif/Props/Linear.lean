import Verif.EvalSpec
import Verif.Props.ExKeySwitch
import Mathlib.Tactic.Linarith
import Mathlib.Tactic.NormNum

/-!
# C11 – C16: addition, subtraction, level dropping and constants
-/

noncomputable section

namespace MK

open Finset

variable {C : Ctx}

/-- What evaluator operations assume about an evaluator's memory.  `Props/History.lean` shows
that it holds after every history of operations. -/
structure Ev.Ok (ev : Ev C) : Prop where
  ksw : ev.ksw.Ok
  pool : ev.pool.Wf C.lq false

theorem Ev.new_ok : (Ev.new : Ev C).Ok := ⟨⟨rfl, rfl⟩, Ct.new_wf _ _⟩

/-! ## Integer constants -/

/-- `math.Floor(x + 0.5)` is exact on integers below `2^52`. -/
theorem floor_half {F : Fl} (hF : F.Ok) {n : ℕ} (hn : n < 2 ^ 52) :
    ⌊F.rnd ((n : ℚ) + 1 / 2)⌋₊ = n := by
  have hn' : (n : ℚ) + 1 ≤ 2 ^ 52 := by exact_mod_cast hn
  have hn0 : (0 : ℚ) ≤ n := Nat.cast_nonneg n
  have h := hF.rel ((n : ℚ) + 1 / 2)
  rw [abs_of_nonneg (a := (n : ℚ) + 1 / 2) (by linarith), abs_le] at h
  have hb : ((n : ℚ) + 1 / 2) / 2 ^ 53 < 1 / 2 := by
    rw [div_lt_iff₀ (by norm_num)]
    norm_num at hn' ⊢
    linarith
  rw [Nat.floor_eq_iff (by linarith [h.1])]
  constructor <;> linarith [h.1, h.2]

theorem toInt64_int {n : ℤ} (hn : |n| < 2 ^ 63) : toInt64 (n : ℚ) = n := by
  unfold toInt64
  have h := abs_lt.mp hn
  have : (if (n : ℚ) < 0 then ⌈(n : ℚ)⌉ else ⌊(n : ℚ)⌋) = n := by
    split <;> simp
  simp only [this]
  rw [if_pos ⟨h.1.le, h.2⟩]

theorem not_needsScale {F : Fl} (hF : F.Ok) {n : ℤ} (hn : |n| ≤ 2 ^ 53) : ¬ needsScale F (n : ℚ) := by
  rintro ⟨_, h⟩
  rw [toInt64_int (lt_of_le_of_lt hn (by norm_num)), hF.int n hn, sub_self, hF.zero] at h
  exact h rfl

/-- The integer a real constant is rounded to at scale `sc`: half-up rounding of the magnitude,
computed in floating point. -/
def roundConst (F : Fl) (x sc : ℚ) : ℤ :=
  (if x < 0 then -1 else 1) * ⌊F.rnd (F.rnd |sc * x| + 1 / 2)⌋

/-- The rounded constant is within `1/2` and the floating point error of `sc * x`. -/
theorem roundConst_error {F : Fl} (hF : F.Ok) (x : ℚ) {sc : ℚ} (hsc : 0 ≤ sc) :
    |(roundConst F x sc : ℚ) - sc * x| ≤ 1 / 2 + (3 * |sc * x| + 1) / 2 ^ 53 := by
  have key : ∀ y : ℚ, 0 ≤ y → |((⌊F.rnd (F.rnd y + 1 / 2)⌋ : ℤ) : ℚ) - y| ≤
      1 / 2 + (3 * y + 1) / 2 ^ 53 := by
    intro y hy0
    have h1 := hF.rel y
    rw [abs_of_nonneg hy0, abs_le] at h1
    have hz0 : 0 ≤ F.rnd y := hF.nonneg hy0
    have h2 := hF.rel (F.rnd y + 1 / 2)
    rw [abs_of_nonneg (a := F.rnd y + 1 / 2) (by linarith), abs_le] at h2
    have h3 := Int.floor_le (F.rnd (F.rnd y + 1 / 2))
    have h4 := Int.lt_floor_add_one (F.rnd (F.rnd y + 1 / 2))
    have h5 : (F.rnd y + 1 / 2) / 2 ^ 53 ≤ (2 * y + 1) / 2 ^ 53 := by
      apply div_le_div_of_nonneg_right _ (by norm_num)
      have : y / 2 ^ 53 ≤ y := div_le_self hy0 (by norm_num)
      linarith [h1.2]
    have h6 : (3 * y + 1) / 2 ^ 53 = y / 2 ^ 53 + (2 * y + 1) / 2 ^ 53 := by ring
    rw [h6, abs_le]
    constructor <;> linarith [h1.1, h1.2, h2.1, h2.2]
  unfold roundConst
  by_cases hx : x < 0
  · have h7 : |sc * x| = -(sc * x) := abs_of_nonpos (mul_nonpos_of_nonneg_of_nonpos hsc hx.le)
    rw [if_pos hx, h7]
    have key := key (-(sc * x)) (by rw [← h7]; exact abs_nonneg _)
    push_cast
    rw [← abs_neg]
    convert key using 2
    ring
  · have h7 : |sc * x| = sc * x := abs_of_nonneg (mul_nonneg hsc (not_lt.mp hx))
    rw [if_neg hx, h7]
    have key := key (sc * x) (by rw [← h7]; exact abs_nonneg _)
    push_cast
    rw [one_mul]
    exact key

theorem scaled_eq {prm : CPar C} (hF : prm.fl.Ok) (x : ℚ) {sc : ℚ} (hsc : 0 ≤ sc) (i : ℕ)
    (hq : 0 < C.q i) : prm.scaled x sc i = (roundConst prm.fl x sc : ZMod (C.q i)) := by
  unfold CPar.scaled roundConst
  by_cases h0 : x = 0
  · subst h0
    have : ⌊prm.fl.rnd (1 / 2)⌋ = 0 := by
      have := hF.bounds (x := 1 / 2) (by norm_num)
      rw [Int.floor_eq_iff]
      norm_num at this ⊢
      constructor <;> linarith [this.1, this.2]
    simp only [ne_eq, not_true_eq_false, if_false, mul_zero, abs_zero, hF.zero, zero_add, this,
      Int.cast_zero]
  · rw [if_pos h0]
    unfold scaleUpExact
    have hfl : ∀ y : ℚ, 0 ≤ y → ((⌊prm.fl.rnd (prm.fl.rnd y + 1 / 2)⌋₊ : ℕ) : ZMod (C.q i)) =
        ((⌊prm.fl.rnd (prm.fl.rnd y + 1 / 2)⌋ : ℤ) : ZMod (C.q i)) := by
      intro y hy
      have h1 : 0 ≤ prm.fl.rnd (prm.fl.rnd y + 1 / 2) :=
        hF.nonneg (by have := hF.nonneg hy; linarith)
      rw [← Int.natCast_floor_eq_floor h1]
      simp
    by_cases hneg : x < 0
    · have h7 : |sc * x| = -sc * x := by
        rw [abs_of_nonpos (mul_nonpos_of_nonneg_of_nonpos hsc hneg.le)]; ring
      simp only [hneg, if_true]
      rw [Nat.cast_sub (Nat.mod_lt _ hq).le, ZMod.natCast_self, zero_sub, ZMod.natCast_mod, h7,
        hfl _ (by rw [← h7]; exact abs_nonneg _)]
      push_cast
      ring
    · have h7 : |sc * x| = sc * x := abs_of_nonneg (mul_nonneg hsc (not_lt.mp hneg))
      simp only [hneg, if_false]
      rw [ZMod.natCast_mod, h7, hfl _ (by rw [← h7]; exact abs_nonneg _), one_mul]

/-- Small integers are not changed by rounding. -/
theorem roundConst_int {F : Fl} (hF : F.Ok) {n : ℤ} (hn : |n| < 2 ^ 52) :
    roundConst F (n : ℚ) 1 = n := by
  unfold roundConst
  have hnat : n.natAbs < 2 ^ 52 := by
    have : ((n.natAbs : ℤ)) < 2 ^ 52 := by rwa [Int.natCast_natAbs]
    exact_mod_cast this
  have h1 : |(1 : ℚ) * (n : ℚ)| = (n.natAbs : ℕ) := by
    rw [one_mul, Nat.cast_natAbs]; push_cast; rfl
  have h2 : ⌊F.rnd ((n.natAbs : ℚ) + 1 / 2)⌋ = (n.natAbs : ℤ) := by
    have h0 : 0 ≤ F.rnd ((n.natAbs : ℚ) + 1 / 2) := hF.nonneg (by positivity)
    rw [← Int.natCast_floor_eq_floor h0, floor_half hF hnat]
  rw [h1, hF.nat (hnat.le.trans (by norm_num)), h2]
  by_cases hneg : (n : ℚ) < 0
  · have h3 : n < 0 := by exact_mod_cast hneg
    rw [if_pos hneg]; omega
  · have h3 : ¬ n < 0 := fun h => hneg (by exact_mod_cast h)
    rw [if_neg hneg]; omega

/-- Small integers are scaled exactly. -/
theorem scaled_int {prm : CPar C} (hF : prm.fl.Ok) {n : ℤ} (hn : |n| < 2 ^ 52) (i : ℕ)
    (hq : 0 < C.q i) : prm.scaled (n : ℚ) 1 i = (n : ZMod (C.q i)) := by
  rw [scaled_eq hF _ zero_le_one i hq, roundConst_int hF hn]

theorem factor_real (prm : CPar C) (re sc : ℚ) (i : ℕ) (j : Fin C.N) :
    prm.factor (re, 0, sc) i j = prm.scaled re sc i := by
  unfold CPar.factor
  have : prm.scaled 0 sc i = 0 := by simp [CPar.scaled]
  simp [this]

/-! ## Scale alignment: the specification -/

/-- The integer the operand of scale `s` is multiplied by when it is added to one of scale
`s'`: the floor of the rounded quotient if that is at least two, else one. -/
def alignInt (F : Fl) (s s' : ℚ) : ℤ :=
  if s < s' ∧ 2 ≤ ⌊F.rnd (s' / s)⌋ then ⌊F.rnd (s' / s)⌋ else 1

theorem align_eq {prm : CPar C} (hF : prm.fl.Ok) {s s' : ℚ} {l lq i : ℕ} (hq : 0 < C.q i)
    (j : Fin C.N) (hs : alignInt prm.fl s s' < 2 ^ 52) :
    prm.align s s' l lq i j = (alignInt prm.fl s s' : ZMod (C.q i)) := by
  unfold CPar.align alignInt at *
  have hr : prm.ratio s' s = ⌊prm.fl.rnd (s' / s)⌋ := rfl
  rw [hr]
  by_cases h : s < s' ∧ 2 ≤ ⌊prm.fl.rnd (s' / s)⌋
  · rw [if_pos h] at hs ⊢
    rw [if_pos (⟨h.1, by omega⟩ : s < s' ∧ 1 < ⌊prm.fl.rnd (s' / s)⌋)]
    set n := ⌊prm.fl.rnd (s' / s)⌋
    have hn : |n| < 2 ^ 52 := by rw [abs_of_nonneg (by omega)]; exact hs
    have : prm.getConstAndScale (min l lq) (.f64 (n : ℚ)) = ((n : ℚ), 0, 1) := by
      simp only [CPar.getConstAndScale]
      rw [if_neg (not_needsScale hF (hn.le.trans (by norm_num)))]
    rw [this, factor_real, scaled_int hF hn i hq]
  · rw [if_neg h, if_neg (fun h' => h ⟨h'.1, by omega⟩)]
    simp

theorem rowsOf_of_not_mem {ct : Ct C} {id : String} (h : id ∉ ct.value.keys) (i : ℕ) :
    ct.rowsOf id i = 0 := by
  unfold Ct.rowsOf
  rw [(GoMap.get?_eq_none_iff _ _).mpr h]

theorem Ct.Wf.comp_eq {ct : Ct C} {L : ℕ} (h : ct.Wf L false) (id : String) (i : ℕ) :
    ct.comp id i = ⟨ct.rowsOf id i⟩ := by
  unfold Ct.comp Ct.rowsOf
  cases hg : ct.value.get? id with
  | none => rfl
  | some p => exact RPoly.val_false _ (h.ntt _ _ hg) i

/-- The phase of a linear combination. -/
theorem lin_phase {a b r : Ct C} {la lb L : ℕ} (ha : a.Wf la false) (hb : b.Wf lb false)
    (x y : ℤ) (hr : CtIs r L (insert "0" (a.parties ∪ b.parties)) fun id i j =>
      a.rowsOf id i j * (x : ZMod (C.q i)) + b.rowsOf id i j * (y : ZMod (C.q i)))
    (s : String → Nega C.N ℤ) {i : ℕ} (hi : i ≤ L) :
    r.phase s i = (x : Nega C.N (ZMod (C.q i))) * a.phase s i + (y : Nega C.N (ZMod (C.q i))) *
      b.phase s i := by
  have hk : r.value.keys.toFinset = insert "0" (a.parties ∪ b.parties) := by
    ext id; rw [List.mem_toFinset, hr.mem]
  have hka : a.value.keys.toFinset ⊆ insert "0" (a.parties ∪ b.parties) := by
    rw [← insert_parties ha]
    exact insert_subset_insert _ subset_union_left
  have hkb : b.value.keys.toFinset ⊆ insert "0" (a.parties ∪ b.parties) := by
    rw [← insert_parties hb]
    exact insert_subset_insert _ subset_union_right
  rw [Ct.phase_eq_sum_of_subset r s i hk.subset, Ct.phase_eq_sum_of_subset a s i hka,
    Ct.phase_eq_sum_of_subset b s i hkb, mul_sum, mul_sum, ← sum_add_distrib]
  refine sum_congr rfl fun id hid => ?_
  rw [hr.comp hid hi, ha.comp_eq, hb.comp_eq]
  have : (⟨fun j => a.rowsOf id i j * (x : ZMod (C.q i)) + b.rowsOf id i j * (y : ZMod (C.q i))⟩ :
      Nega C.N (ZMod (C.q i))) = (x : Nega C.N (ZMod (C.q i))) * ⟨a.rowsOf id i⟩ +
        (y : Nega C.N (ZMod (C.q i))) * ⟨b.rowsOf id i⟩ := by
    ext j
    rw [Nega.coeff_add, Nega.coeff_intCast_mul, Nega.coeff_intCast_mul]
    ring
  rw [this]
  ring

/-- The inputs of a binary operation: coefficient-form operands of admissible levels. -/
structure BinIn (prm : CPar C) (ev : Ev C) (a b : CCt C) (la lb : ℕ) : Prop where
  ok : ev.Ok
  wa : a.ct.Wf la false
  wb : b.ct.Wf lb false
  la : la < C.nQ
  lb : lb < C.nQ
  fl : prm.fl.Ok
  /-- the scale ratio fits comfortably in a float64 integer -/
  ab : alignInt prm.fl a.scale b.scale < 2 ^ 52
  ba : alignInt prm.fl b.scale a.scale < 2 ^ 52

theorem le_lq {l : ℕ} (h : l < C.nQ) : l ≤ C.lq := by unfold Ctx.lq; omega

theorem alignedRows_eq {prm : CPar C} (hC : C.Good) (hF : prm.fl.Ok) (c : CCt C) (s' : ℚ) (l lq : ℕ)
    (hs : alignInt prm.fl c.scale s' < 2 ^ 52) (id : String) (i : ℕ) :
    prm.alignedRows c s' l lq id i = fun j =>
      c.ct.rowsOf id i j * (alignInt prm.fl c.scale s' : ZMod (C.q i)) := by
  funext j
  unfold CPar.alignedRows
  rw [align_eq hF (hC.posQ i) j hs]

theorem aligned_absent {prm : CPar C} {c : CCt C} {id : String}
    (hz : id ≠ "0") (hid : id ∉ c.ct.parties) (s' : ℚ) (l lq i : ℕ) :
    prm.alignedRows c s' l lq id i = 0 := by
  have : id ∉ c.ct.value.keys := fun h' => hid (mem_parties.mpr ⟨h', hz⟩)
  funext j
  unfold CPar.alignedRows
  rw [rowsOf_of_not_mem this]
  simp

/-- What `AddNew` returns, component by component. -/
theorem addNew_spec (hC : C.Good) {prm : CPar C} {ev : Ev C} {a b : CCt C} {la lb : ℕ}
    (I : BinIn prm ev a b la lb) (π : Sched) :
    ∃ pool r, ev.AddNew prm a b π = .ok ({ ev with pool := pool }, ⟨r, max a.scale b.scale⟩) ∧
      pool.Wf C.lq false ∧
      CtIs r (min la lb) (insert "0" (a.ct.parties ∪ b.ct.parties)) fun id i j =>
        a.ct.rowsOf id i j * (alignInt prm.fl a.scale b.scale : ZMod (C.q i)) +
        b.ct.rowsOf id i j * (alignInt prm.fl b.scale a.scale : ZMod (C.q i)) := by
  obtain ⟨o, eo, Ho⟩ := newCiphertextBinary_spec I.wa I.wb (π.sub 0)
  obtain ⟨pool, r, e, hp, hr⟩ := evaluateInPlace_spec hC prm ev (ctOut := ⟨o, max a.scale b.scale⟩)
    I.wa I.wb (le_lq I.la) (le_lq I.lb) I.ok.pool Ho (evaluate := RPoly.addLvl)
    (g := fun i x y => x + y) (fun _ _ _ _ => rfl) (π.sub 1)
  refine ⟨pool, r, ?_, hp, hr.congr fun id hid i _ => ?_⟩
  · unfold Ev.AddNew
    rw [eo, Go.ok_bind, e]
  · have hx := alignedRows_eq hC I.fl a b.scale la C.lq I.ab id i
    have hy := alignedRows_eq hC I.fl b a.scale lb C.lq I.ba id i
    have goal : evalF (fun i x y => x + y) a.ct.parties b.ct.parties
        (prm.alignedRows a b.scale la C.lq) (prm.alignedRows b a.scale lb C.lq) id i =
        prm.alignedRows a b.scale la C.lq id i + prm.alignedRows b a.scale lb C.lq id i := by
      unfold evalF
      by_cases hz : id = "0"
      · rw [if_pos hz]
      · rw [if_neg hz]
        by_cases h0 : id ∈ a.ct.parties
        · rw [if_neg (not_not.mpr h0)]
          by_cases h1 : id ∈ b.ct.parties
          · rw [if_neg (not_not.mpr h1)]
          · rw [if_pos h1, aligned_absent hz h1, add_zero]
        · rw [if_pos h0, aligned_absent hz h0, zero_add]
    rw [goal, hx, hy]
    rfl

theorem negLoop_spec {out : Ct C} {L : ℕ} {S0 S : Finset String} (hz : "0" ∉ S)
    {F : String → (i : ℕ) → Row C.N (C.q i)} (H : CtIs out L (insert "0" S) F) {idset0 : IDSet}
    (hm0 : ∀ v, v ∈ GoMap.keys idset0 ↔ v ∈ S0) {o : List String} (hn : o.Nodup)
    (ho : o.toFinset = S) :
    ∃ r, forEach o (negStep L idset0) out = .ok r ∧ CtIs r L (insert "0" S) fun id i =>
      if id ≠ "0" ∧ id ∉ S0 then - F id i else F id i := by
  obtain ⟨r, e, hI⟩ := forEach_inv o hn (negStep L idset0) (fun done s => CtIs s L (insert "0" S)
    fun id i => if id ∈ done ∧ id ∉ S0 then - F id i else F id i) out
    (H.congr fun id _ i _ => by simp) (by
      rintro done a s hnd ha hI
      have haS : a ∈ S := by rw [← ho]; simpa using ha
      by_cases h0 : a ∈ S0
      · have h0' : idset0.Has a = true := (IDSet.Has_iff _ _).mpr ((hm0 a).mpr h0)
        refine ⟨s, by simp only [negStep, h0', Bool.not_true, Bool.false_eq_true, if_false,
          Go.pure_eq], hI.congr fun id _ i _ => ?_⟩
        by_cases hid : id = a
        · subst hid; simp [h0]
        · simp [hid]
      · have h0' : idset0.Has a = false := by
          rw [← Bool.not_eq_true]
          exact fun h => h0 ((hm0 a).mp ((IDSet.Has_iff _ _).mp h))
        obtain ⟨p, hp, l, n, rr⟩ := hI.get (mem_insert_of_mem haS)
        refine ⟨⟨s.value.set a (RPoly.negLvl L p p)⟩, by simp only [negStep, h0', Bool.not_false,
          if_true, GoMap.deref_of_get? hp, Go.ok_bind, Go.pure_eq], ?_⟩
        refine hI.set (mem_insert_of_mem haS) l n ?_ ?_
        · intro i hi
          rw [RPoly.negLvl, RPoly.write_row_of_le _ _ hi, rr i hi]
          simp [hnd, h0]
        · intro id _ hne i _
          simp [hne])
  refine ⟨r, e, hI.congr fun id hid i _ => ?_⟩
  rw [ho]
  rcases mem_insert.mp hid with rfl | h
  · simp [hz]
  · have : id ≠ "0" := fun h' => hz (h' ▸ h)
    simp [h, this]

/-- What `SubNew` returns, component by component. -/
theorem subNew_spec (hC : C.Good) {prm : CPar C} {ev : Ev C} {a b : CCt C} {la lb : ℕ}
    (I : BinIn prm ev a b la lb) (π : Sched) :
    ∃ pool r, ev.SubNew prm a b π = .ok ({ ev with pool := pool }, ⟨r, max a.scale b.scale⟩) ∧
      pool.Wf C.lq false ∧
      CtIs r (min la lb) (insert "0" (a.ct.parties ∪ b.ct.parties)) fun id i j =>
        a.ct.rowsOf id i j * (alignInt prm.fl a.scale b.scale : ZMod (C.q i)) +
        b.ct.rowsOf id i j * ((-alignInt prm.fl b.scale a.scale : ℤ) : ZMod (C.q i)) := by
  obtain ⟨o, eo, Ho⟩ := newCiphertextBinary_spec I.wa I.wb (π.sub 0)
  obtain ⟨pool, r, e, hp, hr⟩ := evaluateInPlace_spec hC prm ev (ctOut := ⟨o, max a.scale b.scale⟩)
    I.wa I.wb (le_lq I.la) (le_lq I.lb) I.ok.pool Ho (evaluate := RPoly.subLvl)
    (g := fun i x y => x - y) (fun _ _ _ _ => rfl) ((π.sub 1).sub 0)
  have hzu : "0" ∉ a.ct.parties ∪ b.ct.parties := fun h => by
    rcases mem_union.mp h with h | h <;> exact zero_notMem_parties _ h
  obtain ⟨s0, e0, _, m0⟩ := a.ct.IDSet_parties ((π.sub 1).isOrder 1 a.ct.value)
  obtain ⟨so, eso, wso, mso⟩ := r.IDSet_parties ((π.sub 1).isOrder 2 r.value)
  have hord := (π.sub 1).isOrder 3 so
  obtain ⟨r', e', hr'⟩ := negLoop_spec hzu hr m0 (hord.nodup wso)
    (by ext v; rw [List.mem_toFinset, hord.mem, mso, hr.parties hzu])
  refine ⟨pool, r', ?_, hp, hr'.congr fun id hid i _ => ?_⟩
  · unfold Ev.SubNew Ev.sub
    simp only [eo, Go.ok_bind, e, I.wa.level, I.wb.level, (hr.toWf (mem_insert_self _ _)).level, e0,
      eso, min_self, e', Go.pure_eq]
  · have hx := alignedRows_eq hC I.fl a b.scale la C.lq I.ab id i
    have hy := alignedRows_eq hC I.fl b a.scale lb C.lq I.ba id i
    have goal : (if id ≠ "0" ∧ id ∉ a.ct.parties then
        - evalF (fun i x y => x - y) a.ct.parties b.ct.parties
          (prm.alignedRows a b.scale la C.lq) (prm.alignedRows b a.scale lb C.lq) id i
        else evalF (fun i x y => x - y) a.ct.parties b.ct.parties
          (prm.alignedRows a b.scale la C.lq) (prm.alignedRows b a.scale lb C.lq) id i) =
        prm.alignedRows a b.scale la C.lq id i - prm.alignedRows b a.scale lb C.lq id i := by
      unfold evalF
      by_cases hz : id = "0"
      · simp [hz]
      · by_cases h0 : id ∈ a.ct.parties
        · by_cases h1 : id ∈ b.ct.parties
          · simp [hz, h0, h1]
          · simp [hz, h0, h1, aligned_absent hz h1]
        · simp [hz, h0, aligned_absent hz h0]
    rw [goal, hx, hy]
    funext j
    simp only [Pi.sub_apply]
    push_cast
    ring

/-! ## C11, C12 -/

theorem alignInt_self (F : Fl) (s : ℚ) : alignInt F s s = 1 := by simp [alignInt]

/-- **C11.** `AddNew` on operands of equal scale decrypts to the sum, for every secret key and
every modulus of the result, whatever the iteration orders. -/
theorem C11_AddNew (hC : C.Good) {prm : CPar C} {ev : Ev C} {a b : CCt C} {la lb : ℕ}
    (I : BinIn prm ev a b la lb) (hs : a.scale = b.scale) (π : Sched) :
    ∃ ev' r, ev.AddNew prm a b π = .ok (ev', r) ∧ ∀ s, ∀ i ≤ min la lb,
      r.ct.phase s i = a.ct.phase s i + b.ct.phase s i := by
  obtain ⟨pool, r, e, _, hr⟩ := addNew_spec hC I π
  refine ⟨_, _, e, fun s i hi => ?_⟩
  rw [lin_phase I.wa I.wb _ _ hr s hi, hs, alignInt_self]
  simp

/-- An exact integer ratio is used exactly. -/
theorem alignInt_mul {F : Fl} (hF : F.Ok) {s : ℚ} (hs : 0 < s) {k : ℤ} (hk : 2 ≤ k)
    (hk' : k ≤ 2 ^ 53) : alignInt F s (k * s) = k ∧ alignInt F (k * s) s = 1 := by
  have hk1 : (2 : ℚ) ≤ k := by exact_mod_cast hk
  have h1 : (k : ℚ) * s / s = k := by field_simp
  have h2 : F.rnd ((k : ℚ) * s / s) = k := by
    rw [h1]; exact hF.int k (by rw [abs_of_nonneg (by omega)]; exact hk')
  constructor
  · unfold alignInt
    rw [h2, Int.floor_intCast, if_pos ⟨by nlinarith, hk⟩]
  · unfold alignInt
    rw [if_neg]
    rintro ⟨h, _⟩
    nlinarith

/-- **C11, scale ratios.** When one scale is an integer multiple `k ≥ 2` of the other, the
smaller operand is multiplied by `k` first (both orders). -/
theorem C11_AddNew_ratio (hC : C.Good) {prm : CPar C} {ev : Ev C} {a b : CCt C} {la lb : ℕ}
    (I : BinIn prm ev a b la lb) {k : ℤ} (hk : 2 ≤ k) (hk' : k ≤ 2 ^ 53) (π : Sched) :
    (0 < a.scale → b.scale = k * a.scale → ∃ ev' r, ev.AddNew prm a b π = .ok (ev', r) ∧
      ∀ s, ∀ i ≤ min la lb, r.ct.phase s i = k * a.ct.phase s i + b.ct.phase s i) ∧
    (0 < b.scale → a.scale = k * b.scale → ∃ ev' r, ev.AddNew prm a b π = .ok (ev', r) ∧
      ∀ s, ∀ i ≤ min la lb, r.ct.phase s i = a.ct.phase s i + k * b.ct.phase s i) := by
  obtain ⟨pool, r, e, _, hr⟩ := addNew_spec hC I π
  constructor
  · intro h1 h2
    refine ⟨_, _, e, fun s i hi => ?_⟩
    rw [lin_phase I.wa I.wb _ _ hr s hi, h2, (alignInt_mul I.fl h1 hk hk').1,
      (alignInt_mul I.fl h1 hk hk').2]
    simp
  · intro h1 h2
    refine ⟨_, _, e, fun s i hi => ?_⟩
    rw [lin_phase I.wa I.wb _ _ hr s hi, h2, (alignInt_mul I.fl h1 hk hk').1,
      (alignInt_mul I.fl h1 hk hk').2]
    simp

/-- **C12.** `SubNew` on operands of equal scale decrypts to the difference; parties present
in only one operand included. -/
theorem C12_SubNew (hC : C.Good) {prm : CPar C} {ev : Ev C} {a b : CCt C} {la lb : ℕ}
    (I : BinIn prm ev a b la lb) (hs : a.scale = b.scale) (π : Sched) :
    ∃ ev' r, ev.SubNew prm a b π = .ok (ev', r) ∧ ∀ s, ∀ i ≤ min la lb,
      r.ct.phase s i = a.ct.phase s i - b.ct.phase s i := by
  obtain ⟨pool, r, e, _, hr⟩ := subNew_spec hC I π
  refine ⟨_, _, e, fun s i hi => ?_⟩
  rw [lin_phase I.wa I.wb _ _ hr s hi, hs, alignInt_self]
  simp [sub_eq_add_neg]

/-- **C12, scale ratios.** -/
theorem C12_SubNew_ratio (hC : C.Good) {prm : CPar C} {ev : Ev C} {a b : CCt C} {la lb : ℕ}
    (I : BinIn prm ev a b la lb) {k : ℤ} (hk : 2 ≤ k) (hk' : k ≤ 2 ^ 53) (π : Sched) :
    (0 < a.scale → b.scale = k * a.scale → ∃ ev' r, ev.SubNew prm a b π = .ok (ev', r) ∧
      ∀ s, ∀ i ≤ min la lb, r.ct.phase s i = k * a.ct.phase s i - b.ct.phase s i) ∧
    (0 < b.scale → a.scale = k * b.scale → ∃ ev' r, ev.SubNew prm a b π = .ok (ev', r) ∧
      ∀ s, ∀ i ≤ min la lb, r.ct.phase s i = a.ct.phase s i - k * b.ct.phase s i) := by
  obtain ⟨pool, r, e, _, hr⟩ := subNew_spec hC I π
  constructor
  · intro h1 h2
    refine ⟨_, _, e, fun s i hi => ?_⟩
    rw [lin_phase I.wa I.wb _ _ hr s hi, h2, (alignInt_mul I.fl h1 hk hk').1,
      (alignInt_mul I.fl h1 hk hk').2]
    simp [sub_eq_add_neg]
  · intro h1 h2
    refine ⟨_, _, e, fun s i hi => ?_⟩
    rw [lin_phase I.wa I.wb _ _ hr s hi, h2, (alignInt_mul I.fl h1 hk hk').1,
      (alignInt_mul I.fl h1 hk hk').2]
    simp [sub_eq_add_neg]

/-! ## C13 -/

/-- **C13.** Participants are the union, the level is the minimum, the scale is the maximum and
the form is coefficient form, for `AddNew` and `SubNew`. -/
theorem C13_metadata (hC : C.Good) {prm : CPar C} {ev : Ev C} {a b : CCt C} {la lb : ℕ}
    (I : BinIn prm ev a b la lb) (π : Sched) :
    (∃ ev' r, ev.AddNew prm a b π = .ok (ev', r) ∧ r.ct.parties = a.ct.parties ∪ b.ct.parties ∧
      r.ct.Wf (min la lb) false ∧ r.ct.Level = .ok (min la lb) ∧ r.scale = max a.scale b.scale) ∧
    (∃ ev' r, ev.SubNew prm a b π = .ok (ev', r) ∧ r.ct.parties = a.ct.parties ∪ b.ct.parties ∧
      r.ct.Wf (min la lb) false ∧ r.ct.Level = .ok (min la lb) ∧ r.scale = max a.scale b.scale) := by
  have hzu : "0" ∉ a.ct.parties ∪ b.ct.parties := fun h => by
    rcases mem_union.mp h with h | h <;> exact zero_notMem_parties _ h
  obtain ⟨pool, r, e, _, hr⟩ := addNew_spec hC I π
  obtain ⟨pool', r', e', _, hr'⟩ := subNew_spec hC I π
  exact ⟨⟨_, _, e, hr.parties hzu, hr.toWf (mem_insert_self _ _),
      (hr.toWf (mem_insert_self _ _)).level, rfl⟩,
    ⟨_, _, e', hr'.parties hzu, hr'.toWf (mem_insert_self _ _),
      (hr'.toWf (mem_insert_self _ _)).level, rfl⟩⟩

/-! ## C14 -/

/-- **C14, the factor.** For all scales, the operand of smaller scale is multiplied by exactly
the integer `alignInt`. -/
theorem C14_factor (hC : C.Good) {prm : CPar C} {ev : Ev C} {a b : CCt C} {la lb : ℕ}
    (I : BinIn prm ev a b la lb) (π : Sched) :
    ∃ ev' r, ev.AddNew prm a b π = .ok (ev', r) ∧ r.scale = max a.scale b.scale ∧
      ∀ s, ∀ i ≤ min la lb, r.ct.phase s i =
        (alignInt prm.fl a.scale b.scale : ℤ) * a.ct.phase s i +
        (alignInt prm.fl b.scale a.scale : ℤ) * b.ct.phase s i := by
  obtain ⟨pool, r, e, _, hr⟩ := addNew_spec hC I π
  exact ⟨_, _, e, rfl, fun s i hi => lin_phase I.wa I.wb _ _ hr s hi⟩

theorem alignInt_larger (F : Fl) {s s' : ℚ} (h : s' ≤ s) : alignInt F s s' = 1 := by
  unfold alignInt; rw [if_neg (fun h' => absurd h'.1 (not_lt.mpr h))]

/-- How far the factor is from the ratio of the scales. -/
theorem alignInt_error {F : Fl} (hF : F.Ok) {s s' : ℚ} (hs : 0 < s) (hss : s ≤ s')
    (hr : s' / s ≤ 2 ^ 52) : |(alignInt F s s' : ℚ) * s - s'| < 3 / 2 * s := by
  set r := s' / s with hrdef
  have hs' : s' = r * s := by rw [hrdef]; field_simp
  have hr1 : 1 ≤ r := by rw [hrdef, le_div_iff₀ hs]; linarith
  have hb := hF.bounds (x := r) (by linarith)
  have hu : F.rnd r ≤ r + 1 / 2 := by
    have : r * (1 + 1 / 2 ^ 53) ≤ r + 1 / 2 := by
      have : r * (1 / 2 ^ 53) ≤ 2 ^ 52 * (1 / 2 ^ 53) :=
        mul_le_mul_of_nonneg_right hr (by norm_num)
      norm_num at this ⊢
      linarith
    linarith [hb.2]
  have hl : r - 1 / 2 ≤ F.rnd r := by
    have : r - 1 / 2 ≤ r * (1 - 1 / 2 ^ 53) := by
      have : r * (1 / 2 ^ 53) ≤ 2 ^ 52 * (1 / 2 ^ 53) :=
        mul_le_mul_of_nonneg_right hr (by norm_num)
      norm_num at this ⊢
      linarith
    linarith [hb.1]
  have key : |(alignInt F s s' : ℚ) - r| < 3 / 2 := by
    unfold alignInt
    by_cases h : s < s' ∧ 2 ≤ ⌊F.rnd (s' / s)⌋
    · rw [if_pos h, ← hrdef]
      have h1 := Int.floor_le (F.rnd r)
      have h2 := Int.lt_floor_add_one (F.rnd r)
      rw [abs_lt]
      constructor <;> linarith
    · rw [if_neg h]
      have : r < 5 / 2 := by
        by_cases h' : s < s'
        · have h3 : ¬ 2 ≤ ⌊F.rnd (s' / s)⌋ := fun h3 => h ⟨h', h3⟩
          rw [← hrdef, Int.le_floor] at h3
          push_cast at h3
          linarith
        · have : s' = s := le_antisymm (not_lt.mp h') hss
          have : r = 1 := by rw [hrdef, this]; field_simp
          rw [this]; norm_num
      push_cast
      rw [abs_lt]
      constructor <;> linarith
  have : (alignInt F s s' : ℚ) * s - s' = ((alignInt F s s' : ℚ) - r) * s := by rw [hs']; ring
  rw [this, abs_mul, abs_of_pos hs]
  exact mul_lt_mul_of_pos_right key hs

/-- **C14, decoding error.** Let `ma`, `mb` be integer polynomials behind the phases.  The sum
decodes, at the returned scale, to the sum of the decoded operands with an error of at most
`3/2` units of the smaller operand over the larger scale. -/
theorem C14_decode_error {F : Fl} (hF : F.Ok) {sa sb : ℚ} (hs : 0 < sa) (hss : sa ≤ sb)
    (hr : sb / sa ≤ 2 ^ 52) (ma mb : ℤ) :
    |((alignInt F sa sb * ma + alignInt F sb sa * mb : ℤ) : ℚ) / max sa sb - (ma / sa + mb / sb)|
      ≤ 3 / 2 * |(ma : ℚ)| / sb := by
  rw [alignInt_larger F hss, max_eq_right hss]
  have hsb : 0 < sb := hs.trans_le hss
  have : ((alignInt F sa sb * ma + 1 * mb : ℤ) : ℚ) / sb - (ma / sa + mb / sb) =
      ((alignInt F sa sb : ℚ) * sa - sb) / sa * ma / sb := by
    push_cast
    field_simp
    ring
  rw [this, abs_div, abs_mul, abs_div, abs_of_pos hs, abs_of_pos hsb]
  have := (alignInt_error hF hs hss hr).le
  apply div_le_div_of_nonneg_right _ hsb.le
  apply mul_le_mul_of_nonneg_right _ (abs_nonneg _)
  rwa [div_le_iff₀ hs]

/-- **C14, exactness.** The decoded sum is exact for every message if and only if the larger
scale is an integer multiple of the smaller. -/
theorem C14_exact_iff {F : Fl} (hF : F.Ok) {sa sb : ℚ} (hs : 0 < sa) (hss : sa ≤ sb)
    (hr : sb / sa ≤ 2 ^ 52) :
    (∀ ma mb : ℤ, ((alignInt F sa sb * ma + alignInt F sb sa * mb : ℤ) : ℚ) / max sa sb =
      ma / sa + mb / sb) ↔ ∃ n : ℤ, sb = n * sa := by
  rw [alignInt_larger F hss, max_eq_right hss]
  have hsb : 0 < sb := hs.trans_le hss
  constructor
  · intro h
    refine ⟨alignInt F sa sb, ?_⟩
    have := h 1 0
    push_cast at this
    field_simp at this
    linarith
  · rintro ⟨n, hn⟩ ma mb
    have hk : (alignInt F sa sb : ℚ) * sa = sb := by
      by_cases hn1 : n = 1
      · have hab : sb = sa := by rw [hn, hn1]; simp
        rw [hab, alignInt_self]; simp
      · have hn0 : (1 : ℚ) ≤ n := by
          by_contra h'
          have : (n : ℚ) * sa < 1 * sa := mul_lt_mul_of_pos_right (not_le.mp h') hs
          linarith
        have hn2 : 2 ≤ n := by
          have : (1 : ℤ) ≤ n := by exact_mod_cast hn0
          omega
        have hn3 : n ≤ 2 ^ 53 := by
          rw [hn] at hr
          have : (n : ℚ) * sa / sa = n := by field_simp
          rw [this] at hr
          have : n ≤ 2 ^ 52 := by exact_mod_cast hr
          omega
        rw [hn, (alignInt_mul hF hs hn2 hn3).1]
    have : ((alignInt F sa sb * ma + 1 * mb : ℤ) : ℚ) / sb =
        ((alignInt F sa sb : ℚ) * sa) / sb * (ma / sa) + mb / sb := by
      push_cast
      field_simp
    rw [this, hk]
    field_simp

/-- **C14, ratios below two are ignored.** With exact or rounded division, scales in ratio
`3/2` are added without any alignment. -/
theorem C14_ratio_below_two {F : Fl} (hF : F.Ok) {s : ℚ} (hs : 0 < s) :
    alignInt F s (3 / 2 * s) = 1 := by
  unfold alignInt
  rw [if_neg]
  rintro ⟨_, h⟩
  have h1 : 3 / 2 * s / s = 3 / 2 := by field_simp
  rw [h1, Int.le_floor] at h
  have := (hF.bounds (x := 3 / 2) (by norm_num)).2
  push_cast at h
  norm_num at this
  linarith

/-! ## C15 -/

/-- **C15.** `DropLevel` removes exactly `n` moduli from every component and keeps the phase
modulo every remaining modulus. -/
theorem C15_DropLevel {ct : Ct C} {L : ℕ} (h : ct.Wf L false) {n : ℕ} (hn : n ≤ L)
    {o : List String} (ho : ct.value.IsOrder o) :
    ∃ r, dropLevel ct n o = .ok r ∧ r.Wf (L - n) false ∧ r.parties = ct.parties ∧
      (∀ id p p', ct.value.get? id = some p → r.value.get? id = some p' → p'.len + n = p.len) ∧
      ∀ s, ∀ i ≤ L - n, r.phase s i = ct.phase s i := by
  have hc := h.ctIs
  rw [← insert_parties h] at hc
  obtain ⟨r, e, hr⟩ := dropLevel_spec hc (mem_insert_self _ _) hn ho
  refine ⟨r, e, hr.toWf (mem_insert_self _ _), hr.parties (zero_notMem_parties _), ?_, ?_⟩
  · intro id p p' hp hp'
    rw [h.len _ _ hp, hr.len _ _ hp']
    omega
  · intro s i hi
    refine Ct.phase_congr s i fun id => ?_
    by_cases hid : id ∈ insert "0" ct.parties
    · rw [hr.comp hid hi, h.comp_eq]
    · have h1 : id ∉ r.value.keys := fun h' => hid ((hr.mem _).mp h')
      have h2 : id ∉ ct.value.keys := fun h' => hid ((hc.mem _).mp h')
      rw [Ct.comp_of_not_mem h1, Ct.comp_of_not_mem h2]

/-- **C15, too many levels.** -/
theorem C15_DropLevel_panics {ct : Ct C} {L : ℕ} {b : Bool} (h : ct.Wf L b) {n : ℕ}
    (hn : L + 1 < n) (o : List String) : (dropLevel ct n o).panics := by
  unfold dropLevel
  rw [h.level, Go.ok_bind, if_pos hn]
  exact ⟨_, rfl⟩

/-- **C15, `DropLevelNew`.** -/
theorem C15_DropLevelNew {ct : CCt C} {L : ℕ} (h : ct.ct.Wf L false) {n : ℕ} (hn : n ≤ L)
    (π : Sched) :
    ∃ r, DropLevelNew ct n π = .ok r ∧ r.ct.Wf (L - n) false ∧ r.ct.parties = ct.ct.parties ∧
      r.scale = ct.scale ∧ ∀ s, ∀ i ≤ L - n, r.ct.phase s i = ct.ct.phase s i := by
  obtain ⟨c, ec, wc, gc⟩ := ct.ct.CopyNew_spec h.zero_mem (π.isOrder 0 ct.ct.value)
  have hmem := fun id => Ct.mem_keys_congr gc id
  have hwf : c.Wf L false := ⟨wc, (hmem _).mpr h.zero_mem,
    fun id p hp => h.len id p (by rw [← gc]; exact hp),
    fun id p hp => h.ntt id p (by rw [← gc]; exact hp)⟩
  obtain ⟨r, e, h1, h2, _, h4⟩ := C15_DropLevel hwf hn (π.isOrder 1 c.value)
  refine ⟨⟨r, ct.scale⟩, ?_, h1, ?_, rfl, fun s i hi => ?_⟩
  · unfold DropLevelNew CCt.CopyNew
    simp only [ec, Go.ok_bind, Go.pure_eq, e]
  · rw [h2]
    ext id
    rw [mem_parties, mem_parties, hmem]
  · rw [h4 s i hi]
    exact Ct.phase_congr s i fun id => by unfold Ct.comp; rw [gc]

/-! ## C16 -/

/-- The real constants, with their value as a `float64`. -/
inductive Const.IsReal (F : Fl) : Const → ℚ → Prop
  | f64 (x : ℚ) : IsReal F (.f64 x) x
  | u64 (n : ℕ) : IsReal F (.u64 n) (F.rnd n)
  | i64 (n : ℤ) : IsReal F (.i64 n) (F.rnd n)
  | int (n : ℤ) : IsReal F (.int n) (F.rnd n)
  /-- a complex number whose imaginary part is zero -/
  | complex (x : ℚ) : IsReal F (.complex x 0) x

/-- The scale the constant is multiplied with: the last modulus, if the constant is not an
integer. -/
def constScale (F : Fl) (q : ℕ) : Const → ℚ → Prop
  | .f64 x, sc => (needsScale F x → sc = F.rnd q) ∧ (¬ needsScale F x → sc = 1)
  | .complex x _, sc => (needsScale F x → sc = F.rnd q) ∧ (¬ needsScale F x → sc = 1)
  | _, sc => sc = 1

theorem const_phase {ct r : Ct C} {L L' : ℕ} (h : ct.Wf L false) (k : ℤ)
    (hr : CtIs r L' (insert "0" ct.parties) fun id i j =>
      ct.rowsOf id i j * (k : ZMod (C.q i))) (s : String → Nega C.N ℤ) {i : ℕ} (hi : i ≤ L') :
    r.phase s i = (k : Nega C.N (ZMod (C.q i))) * ct.phase s i := by
  have hk : r.value.keys.toFinset = insert "0" ct.parties := by
    ext id; rw [List.mem_toFinset, hr.mem]
  rw [Ct.phase_eq_sum_of_subset r s i hk.subset,
    Ct.phase_eq_sum_of_subset ct s i (insert_parties h).symm.subset, mul_sum]
  refine sum_congr rfl fun id hid => ?_
  rw [hr.comp hid hi, h.comp_eq]
  have : (⟨fun j => ct.rowsOf id i j * (k : ZMod (C.q i))⟩ : Nega C.N (ZMod (C.q i))) =
      (k : Nega C.N (ZMod (C.q i))) * ⟨ct.rowsOf id i⟩ := by
    ext j
    rw [Nega.coeff_intCast_mul]
    ring
  rw [this]
  ring

/-- **C16.** For every coefficient-form ciphertext and every real constant `x`, into any output
over the same participants: the phase is multiplied by the rounded constant at every common
level, and the scale by the scale used. -/
theorem C16_MultByConst (hC : C.Good) {prm : CPar C} (hF : prm.fl.Ok) {ct0 out : CCt C}
    {L0 L1 : ℕ} (h0 : ct0.ct.Wf L0 false) (h1 : out.ct.Wf L1 false)
    (hp : out.ct.parties = ct0.ct.parties) {c : Const} {x : ℚ} (hc : c.IsReal prm.fl x) (π : Sched) :
    ∃ r sc, prm.MultByConst ct0 c out π = .ok r ∧ constScale prm.fl (C.q (min L0 L1)) c sc ∧
      r.scale = prm.fl.rnd (ct0.scale * sc) ∧ r.ct.Wf L1 false ∧
      r.ct.parties = ct0.ct.parties ∧ (∀ s, ∀ i ≤ min L0 L1, r.ct.phase s i =
        (roundConst prm.fl x sc : ℤ) * ct0.ct.phase s i) ∧
      |(roundConst prm.fl x sc : ℚ) - sc * x| ≤ 1 / 2 + (3 * |sc * x| + 1) / 2 ^ 53 := by
  have hc0 := h0.ctIs
  have hc1 := h1.ctIs
  rw [← insert_parties h0] at hc0
  rw [← insert_parties h1, hp] at hc1
  obtain ⟨r, e, hr⟩ := multByConst_spec hC prm hc0 hc1 (mem_insert_self _ _) subset_rfl c π
  set cs := prm.getConstAndScale (min L0 L1) c with hcs
  have hz : prm.fl.rnd 0 - prm.fl.rnd (toInt64 0) = 0 := by
    have : toInt64 0 = 0 := by simp [toInt64]
    rw [this]; simp
  have hcv : cs.1 = x ∧ cs.2.1 = 0 ∧ 0 ≤ cs.2.2 ∧ constScale prm.fl (C.q (min L0 L1)) c cs.2.2 := by
    have hq := hF.nonneg (x := (C.q (min L0 L1) : ℚ)) (Nat.cast_nonneg _)
    rw [hcs]
    cases hc with
    | f64 =>
      refine ⟨rfl, rfl, ?_, ?_⟩
      · simp only [CPar.getConstAndScale]; split <;> [exact hq; norm_num]
      · exact ⟨fun h => by simp only [CPar.getConstAndScale, if_pos h],
          fun h => by simp only [CPar.getConstAndScale, if_neg h]⟩
    | u64 => exact ⟨rfl, rfl, by simp [CPar.getConstAndScale], rfl⟩
    | i64 => exact ⟨rfl, rfl, by simp [CPar.getConstAndScale], rfl⟩
    | int => exact ⟨rfl, rfl, by simp [CPar.getConstAndScale], rfl⟩
    | complex =>
      have hn : ¬ needsScale prm.fl 0 := fun h => h.1 rfl
      refine ⟨rfl, rfl, ?_, ?_⟩
      · simp only [CPar.getConstAndScale]; split <;> [exact hq; norm_num]
      · exact ⟨fun h => by simp only [CPar.getConstAndScale, if_pos (Or.inl h)],
          fun h => by simp only [CPar.getConstAndScale, if_neg (not_or.mpr ⟨h, hn⟩)]⟩
  obtain ⟨a1, a2, a3, a4⟩ := hcv
  have hfac : ∀ i j, prm.factor cs i j = (roundConst prm.fl x cs.2.2 : ZMod (C.q i)) := by
    intro i j
    have : cs = (x, 0, cs.2.2) := by rw [← a1, ← a2]
    rw [this, factor_real, scaled_eq hF x a3 i (hC.posQ i)]
  refine ⟨_, cs.2.2, e, a4, rfl, hr.toWf (mem_insert_self _ _), hr.parties (zero_notMem_parties _), ?_,
    roundConst_error hF x a3⟩
  intro s i hi
  -- `r` may have more rows than `min L0 L1`; only the common ones count
  have hk : r.value.keys.toFinset = insert "0" ct0.ct.parties := by
    ext id; rw [List.mem_toFinset, hr.mem]
  change r.phase s i = _
  rw [Ct.phase_eq_sum_of_subset r s i hk.subset,
    Ct.phase_eq_sum_of_subset ct0.ct s i (insert_parties h0).symm.subset, mul_sum]
  refine sum_congr rfl fun id hid => ?_
  rw [hr.comp hid (hi.trans (min_le_right _ _)), h0.comp_eq]
  have : (⟨mixF (fun id i _ => id ∈ insert "0" ct0.ct.parties ∧ i ≤ min L0 L1)
      (fun id i j => ct0.ct.rowsOf id i j * prm.factor cs i j) out.ct.rowsOf id i⟩ :
      Nega C.N (ZMod (C.q i))) = ((roundConst prm.fl x cs.2.2 : ℤ) : Nega C.N (ZMod (C.q i))) *
        ⟨ct0.ct.rowsOf id i⟩ := by
    ext j
    rw [Nega.coeff_intCast_mul]
    unfold mixF
    simp only [hid, hi, true_and, if_true, hfac]
    ring
  rw [this]
  ring

/-- **C16, integers.** `MultByConst` by an integer below `2^52` multiplies the phase by exactly
that integer and keeps the scale. -/
theorem C16_MultByConst_int (hC : C.Good) {prm : CPar C} (hF : prm.fl.Ok) {ct0 out : CCt C}
    {L0 L1 : ℕ} (h0 : ct0.ct.Wf L0 false) (h1 : out.ct.Wf L1 false)
    (hp : out.ct.parties = ct0.ct.parties) {n : ℤ} (hn : |n| < 2 ^ 52) {c : Const}
    (hc : c = .int n ∨ c = .i64 n ∨ c = .f64 n) (π : Sched) :
    ∃ r, prm.MultByConst ct0 c out π = .ok r ∧ r.scale = prm.fl.rnd ct0.scale ∧
      ∀ s, ∀ i ≤ min L0 L1, r.ct.phase s i = n * ct0.ct.phase s i := by
  have hr : prm.fl.rnd (n : ℚ) = n := hF.int n (hn.le.trans (by norm_num))
  have hc' : c.IsReal prm.fl n := by
    rcases hc with rfl | rfl | rfl
    · have := Const.IsReal.int (F := prm.fl) n; rwa [hr] at this
    · have := Const.IsReal.i64 (F := prm.fl) n; rwa [hr] at this
    · exact .f64 _
  obtain ⟨r, sc, e, hs, hsc, _, _, hph, _⟩ := C16_MultByConst hC hF h0 h1 hp hc' π
  have h1 : sc = 1 := by
    rcases hc with rfl | rfl | rfl
    · exact hs
    · exact hs
    · exact hs.2 (not_needsScale hF (hn.le.trans (by norm_num)))
  subst h1
  refine ⟨r, e, by rw [hsc, mul_one], fun s i hi => ?_⟩
  rw [hph s i hi, roundConst_int hF hn]

/-- `X^(N/2)`, the ring element of the imaginary unit. -/
def imagUnit (N : ℕ) (A : Type _) [CommRing A] : Nega N A :=
  ⟨fun j => if j.val = N / 2 then 1 else 0⟩

theorem complex_scale_nonneg {prm : CPar C} (hF : prm.fl.Ok) (level : ℕ) (re im : ℚ) :
    0 ≤ (prm.getConstAndScale level (.complex re im)).2.2 := by
  simp only [CPar.getConstAndScale]
  split
  · exact hF.nonneg (Nat.cast_nonneg _)
  · norm_num

theorem complex_factor (hC : C.Good) {prm : CPar C} (hF : prm.fl.Ok) (level : ℕ) (re im : ℚ) (i : ℕ)
    (j : Fin C.N) : prm.factor (prm.getConstAndScale level (.complex re im)) i j =
      (roundConst prm.fl re (prm.getConstAndScale level (.complex re im)).2.2 : ZMod (C.q i)) +
      (roundConst prm.fl im (prm.getConstAndScale level (.complex re im)).2.2 : ZMod (C.q i)) *
        (if j.val < C.N / 2 then prm.psi i else - prm.psi i) := by
  have hs := complex_scale_nonneg (prm := prm) hF level re im
  rw [← scaled_eq hF re hs i (hC.posQ i), ← scaled_eq hF im hs i (hC.posQ i)]
  unfold CPar.factor
  have h1 : (prm.getConstAndScale level (.complex re im)).1 = re := rfl
  have h2 : (prm.getConstAndScale level (.complex re im)).2.1 = im := rfl
  rw [h1, h2]
  split <;> ring

/-- The ciphertext without participants that encrypts the constant polynomial one. -/
def oneCt (C : Ctx) (L : ℕ) : Ct C := ⟨⟨[("0", ⟨L + 1, fun _ j => if j.val = 0 then 1 else 0, false⟩)]⟩⟩

theorem oneCt_wf (C : Ctx) (L : ℕ) : (oneCt C L).Wf L false := by
  refine ⟨List.nodup_singleton _, List.mem_singleton_self _, ?_, ?_⟩ <;>
  · intro id p hp
    have : id = "0" ∧ p = ⟨L + 1, fun _ j => if j.val = 0 then 1 else 0, false⟩ := by
      simp only [oneCt, GoMap.get?, List.lookup_cons, List.lookup_nil] at hp
      split at hp
      · rename_i h; cases hp; exact ⟨by simpa using h, rfl⟩
      · cases hp
    rw [this.2]

theorem oneCt_parties (C : Ctx) (L : ℕ) : (oneCt C L).parties = ∅ := by
  ext id
  rw [mem_parties]
  simp [oneCt, GoMap.keys]

theorem oneCt_phase (C : Ctx) (L : ℕ) (s : String → Nega C.N ℤ) (i : ℕ) :
    (oneCt C L).phase s i = 1 := by
  rw [phase_eq_ringPhase (oneCt_wf C L).zero_mem, oneCt_parties]
  unfold ringPhase
  rw [Finset.sum_empty, add_zero, (oneCt_wf C L).comp_eq]
  rfl

/-- **C16 (negation for complex constants).** On the coefficient-form ciphertexts all evaluator
functions produce, multiplication by the imaginary unit is not multiplication by `X^(N/2)`:
for every parameter set of dimension at least two and every output ciphertext, the encryption of
one is mapped to the constant polynomial `ψ`. -/
theorem C16_complex_wrong (hC : C.Good) {prm : CPar C} (hF : prm.fl.Ok) (hN : 2 ≤ C.N)
    (hpsi : prm.psi 0 ≠ 0) {L : ℕ} (scale outScale : ℚ) (π : Sched) :
    ∃ r, prm.MultByConst ⟨oneCt C L, scale⟩ (.complex 0 1) ⟨Ct.new L [], outScale⟩ π = .ok r ∧
      r.scale = prm.fl.rnd scale ∧
      ∀ s, r.ct.phase s 0 = Nega.const (prm.psi 0) ∧
        r.ct.phase s 0 ≠ imagUnit C.N _ * (oneCt C L).phase s 0 := by
  have hc0 := (oneCt_wf C L).ctIs
  rw [← insert_parties (oneCt_wf C L), oneCt_parties] at hc0
  have hc1 := (Ct.new_wf (C := C) L []).ctIs
  have hp : (Ct.new L [] : Ct C).parties = ∅ := by
    exact (new_ctIs (C := C) L []).parties (by simp)
  rw [← insert_parties (Ct.new_wf (C := C) L []), hp] at hc1
  obtain ⟨r, e, hr⟩ := multByConst_spec hC prm (ct0 := ⟨oneCt C L, scale⟩)
    (out := ⟨Ct.new L [], outScale⟩) hc0 hc1 (mem_insert_self _ _) subset_rfl (.complex 0 1) π
  have hsc : (prm.getConstAndScale (min L L) (.complex 0 1)).2.2 = 1 := by
    have h1 := not_needsScale hF (n := 0) (by norm_num)
    have h2 := not_needsScale hF (n := 1) (by norm_num)
    simp only [CPar.getConstAndScale]
    rw [if_neg]
    push_cast at h1 h2
    exact not_or.mpr ⟨h1, h2⟩
  have hph : ∀ s, r.phase s 0 = Nega.const (prm.psi 0) := by
    intro s
    rw [show r.phase s 0 = ringPhase ∅ (fun id i => ⟨_⟩) s 0 from
      CtIs.phase (F := fun id i => ⟨mixF (fun id i _ => id ∈ insert "0" ∅ ∧ i ≤ min L L)
        (fun id i j => (oneCt C L).rowsOf id i j *
          prm.factor (prm.getConstAndScale (min L L) (.complex 0 1)) i j)
        (Ct.new L []).rowsOf id i⟩) (Finset.notMem_empty _) hr s (Nat.zero_le _)]
    unfold ringPhase
    rw [Finset.sum_empty, add_zero]
    ext j
    rw [Nega.coeff_const]
    unfold mixF
    simp only [mem_insert_self, Nat.zero_le, true_and, if_true]
    rw [complex_factor hC hF, hsc]
    have r0 := roundConst_int hF (n := 0) (by norm_num)
    have r1 := roundConst_int hF (n := 1) (by norm_num)
    push_cast at r0 r1
    rw [r0, r1]
    have : (oneCt C L).rowsOf "0" 0 j = if j.val = 0 then 1 else 0 := rfl
    rw [this]
    by_cases hj : j.val = 0
    · rw [if_pos hj, if_pos hj, if_pos (by omega)]; simp
    · rw [if_neg hj, if_neg hj]; simp
  refine ⟨_, e, by rw [hsc, mul_one], fun s => ⟨hph s, ?_⟩⟩
  rw [oneCt_phase, mul_one]
  show r.phase s 0 ≠ _
  rw [hph s]
  intro h
  have := congrArg (fun a => Nega.coeff a (⟨0, by omega⟩ : Fin C.N)) h
  simp only [Nega.coeff_const, imagUnit, if_true] at this
  rw [if_neg (by omega)] at this
  exact hpsi this

/-- **C16, complex constants, what does hold.** If the rows hold the transform of `v` (and the
transform orders the roots such that `X^(N/2)` is `ψ` on the first half and `-ψ` on the second),
they are multiplied by the transform of `a + b X^(N/2)`, where `a`, `b` are the rounded parts.
Missing: no evaluator function produces ciphertexts in that form (see `C16_complex_wrong`). -/
theorem C16_complex_partial (hC : C.Good) {prm : CPar C} (hF : prm.fl.Ok) {ct0 out : CCt C}
    {L0 L1 : ℕ} (h0 : ct0.ct.Wf L0 false) (h1 : out.ct.Wf L1 false)
    (hp : out.ct.parties = ct0.ct.parties)
    (hpsi : ∀ i ≤ min L0 L1, C.nttQ.equiv i (imagUnit C.N _) =
      fun j => if j.val < C.N / 2 then prm.psi i else - prm.psi i)
    (v : String → (i : ℕ) → Nega C.N (ZMod (C.q i)))
    (hv : ∀ id ∈ ct0.ct.value.keys, ∀ i ≤ min L0 L1,
      ct0.ct.rowsOf id i = C.nttQ.equiv i (v id i)) (re im : ℚ) (π : Sched) :
    ∃ r sc, prm.MultByConst ct0 (.complex re im) out π = .ok r ∧
      r.scale = prm.fl.rnd (ct0.scale * sc) ∧
      ((needsScale prm.fl re ∨ needsScale prm.fl im → sc = prm.fl.rnd (C.q (min L0 L1))) ∧
        (¬ (needsScale prm.fl re ∨ needsScale prm.fl im) → sc = 1)) ∧
      ∀ id p, r.ct.value.get? id = some p → ∀ i ≤ min L0 L1,
        p.row i = C.nttQ.equiv i (((roundConst prm.fl re sc : ℤ) +
          (roundConst prm.fl im sc : ℤ) * imagUnit C.N (ZMod (C.q i))) * v id i) := by
  have hc0 := h0.ctIs
  have hc1 := h1.ctIs
  rw [← insert_parties h0] at hc0
  rw [← insert_parties h1, hp] at hc1
  obtain ⟨r, e, hr⟩ := multByConst_spec hC prm hc0 hc1 (mem_insert_self _ _) subset_rfl
    (.complex re im) π
  refine ⟨_, (prm.getConstAndScale (min L0 L1) (.complex re im)).2.2, e, rfl,
    ⟨fun h => by simp only [CPar.getConstAndScale, if_pos h],
      fun h => by simp only [CPar.getConstAndScale, if_neg h]⟩, fun id p hid i hi => ?_⟩
  have hmem := (hr.mem id).mp (GoMap.mem_keys_of_get? hid)
  rw [hr.rows id p hid i (hi.trans (min_le_right _ _))]
  funext j
  unfold mixF
  simp only [hmem, hi, true_and, if_true]
  rw [complex_factor hC hF, hv id ((hc0.mem id).mpr hmem) i hi, map_mul, map_add, map_mul,
    map_intCast, map_intCast, hpsi i hi, mul_comm]
  rfl

end MK
