import Verif.EvalSpec

/-!
# Closed forms of `Rescale`, `RescaleNew` and `MulPtxtNew`
-/

noncomputable section

namespace MK

open Finset

variable {C : Ctx}

/-- A loop over all components of a ciphertext that replaces each by something satisfying
`P'`. -/
theorem mapLoop {τ : Type _} (get : τ → Ct C) {body : String → τ → Go τ}
    {P P' : String → RQ C → Prop} {J : τ → Prop} {t0 : τ} {o : List String}
    (hw : (get t0).value.WF) (ho : (get t0).value.IsOrder o) (hJ : J t0)
    (hP : ∀ id p, (get t0).value.get? id = some p → P id p)
    (step : ∀ a t p, J t → (get t).value.get? a = some p → P a p →
      (∀ id, id ∈ (get t).value.keys ↔ id ∈ (get t0).value.keys) →
      ∃ t' p', body a t = .ok t' ∧ J t' ∧ get t' = ⟨(get t).value.set a p'⟩ ∧ P' a p') :
    ∃ t', forEach o body t0 = .ok t' ∧ J t' ∧ (get t').value.WF ∧
      (∀ id, id ∈ (get t').value.keys ↔ id ∈ (get t0).value.keys) ∧
      ∀ id p, (get t').value.get? id = some p → P' id p := by
  obtain ⟨t', e, j, w, m, a⟩ := forEach_inv o (ho.nodup hw) body (fun done t => J t ∧
    (get t).value.WF ∧ (∀ id, id ∈ (get t).value.keys ↔ id ∈ (get t0).value.keys) ∧
    ∀ id p, (get t).value.get? id = some p → if id ∈ done then P' id p else P id p) t0
    ⟨hJ, hw, fun _ => Iff.rfl, by simpa using hP⟩ (by
      rintro done a t hnd ha ⟨j, w, m, h⟩
      obtain ⟨p, hp⟩ := GoMap.exists_get?_of_mem ((m a).mpr (ho.mem.mp ha))
      have hPa := h a p hp
      rw [if_neg hnd] at hPa
      obtain ⟨t', p', e, j', hg, hp'⟩ := step a t p j hp hPa m
      refine ⟨t', e, j', by rw [hg]; exact w.set _ _, fun id => ?_, fun id p2 h2 => ?_⟩
      · rw [hg, GoMap.mem_keys_set, m]
        constructor
        · rintro (rfl | h)
          · exact ho.mem.mp ha
          · exact h
        · exact Or.inr
      · rw [hg] at h2
        by_cases hid : id = a
        · subst hid
          rw [GoMap.get?_set_self] at h2
          cases h2
          simpa using hp'
        · rw [GoMap.get?_set_of_ne _ _ hid] at h2
          have := h id p2 h2
          simpa [hid] using this)
  refine ⟨t', e, j, w, m, fun id p hp => ?_⟩
  have h1 := a id p hp
  rwa [if_pos (by rw [List.mem_toFinset, ho.mem, ← m]; exact GoMap.mem_keys_of_get? hp)] at h1

/-! ## Iterated division -/

/-- Dividing `k` times by the last modulus, rounding to the nearest integer each time. -/
def divSeq (x : (i : ℕ) → Row C.N (C.q i)) (L : ℕ) : ℕ → (i : ℕ) → Row C.N (C.q i)
  | 0 => x
  | k + 1 => fun i j => (divSeq x L k i j - ((divSeq x L k (L - k) j).valMinAbs : ZMod (C.q i))) *
      (C.q (L - k) : ZMod (C.q i))⁻¹

theorem divRoundLvl_row {level : ℕ} (p0 p1 : RQ C) {x : (i : ℕ) → Row C.N (C.q i)} {L k : ℕ}
    (hk : L - k = level) (hx : ∀ i ≤ level, p0.row i = divSeq x L k i) :
    ∀ i < level, (divRoundLvl level p0 p1).row i = divSeq x L (k + 1) i := by
  intro i hi
  subst hk
  simp only [divRoundLvl, divSeq, if_pos hi, centred]
  rw [hx i hi.le, hx (L - k) le_rfl]

theorem divRoundMid_row (n : ℕ) : ∀ (level : ℕ) (pool : RQ C) {x : (i : ℕ) → Row C.N (C.q i)}
    {L k : ℕ}, L - k = level → n ≤ level → (∀ i ≤ level, pool.row i = divSeq x L k i) →
    ∀ i ≤ level - n, (divRoundMid level n pool).row i = divSeq x L (k + n) i := by
  induction n with
  | zero => intro level pool x L k _ _ hx i hi; exact hx i (by omega)
  | succ n ih =>
    intro level pool x L k hk hn hx i hi
    have := ih (level - 1) (divRoundLvl level pool pool) (x := x) (L := L) (k := k + 1) (by omega)
      (by omega) (fun i hi => divRoundLvl_row pool pool hk hx i (by omega)) i (by omega)
    unfold divRoundMid
    rw [this]
    congr 1
    omega

/-- `DivRoundByLastModulusMany` divides `nb` times. -/
theorem divRoundMany_row {level nb : ℕ} (hnb : 0 < nb) (hle : nb ≤ level) (p0 pool p1 : RQ C) :
    ∀ i < level + 1 - nb, (divRoundManyLvl level nb p0 pool p1).2.row i = divSeq p0.row level nb i := by
  intro i hi
  rcases nb with _ | _ | n
  · omega
  · have := divRoundLvl_row (level := level) p0 p1 (x := p0.row) (L := level) (k := 0) (by omega)
      (fun _ _ => rfl) i (by omega)
    exact this
  · unfold divRoundManyLvl
    dsimp only
    have h1 : ∀ i ≤ level - 1, (divRoundLvl level p0 pool).row i = divSeq p0.row level 1 i :=
      fun i hi => divRoundLvl_row p0 pool (x := p0.row) (L := level) (k := 0) (by omega) (fun _ _ => rfl) i
        (by omega)
    have h2 := divRoundMid_row n (level - 1) (divRoundLvl level p0 pool) (x := p0.row) (L := level)
      (k := 1) rfl (by omega) h1
    have h3 := divRoundLvl_row (level := level - 1 - n) (divRoundMid (level - 1) n
      (divRoundLvl level p0 pool)) p1 (x := p0.row) (L := level) (k := 1 + n) (by omega) h2 i (by omega)
    rw [h3]
    congr 1
    omega

theorem divRoundMany_len (level nb : ℕ) (p0 pool p1 : RQ C) :
    (divRoundManyLvl level nb p0 pool p1).2.len = p1.len ∧
    (divRoundManyLvl level nb p0 pool p1).2.isNTT = p1.isNTT := by
  match nb with
  | 0 => exact ⟨rfl, rfl⟩
  | 1 => exact ⟨rfl, rfl⟩
  | n + 2 => exact ⟨rfl, rfl⟩

/-- Only the rows up to the level are read. -/
theorem divSeq_congr {x y : (i : ℕ) → Row C.N (C.q i)} {L : ℕ} (h : ∀ i ≤ L, x i = y i) (k : ℕ) :
    ∀ i ≤ L, divSeq x L k i = divSeq y L k i := by
  induction k with
  | zero => exact h
  | succ k ih =>
    intro i hi
    funext j
    simp only [divSeq]
    rw [ih i hi, ih (L - k) (by omega)]

/-! ## The loop of `Rescale` -/

theorem rescaleBody_spec {ctIn ctOut : Ct C} {L nb : ℕ}
    {K : Finset String} {F G : String → (i : ℕ) → Row C.N (C.q i)} (same : Bool)
    (H : CtIs ctOut L K G) (hin : same = false → CtIs ctIn L K F) (hsame : same = true → G = F)
    (hnb : 0 < nb) (hle : nb ≤ L) {o : List String} (ho : ctOut.value.IsOrder o) (pool : RQ C) :
    ∃ pool' r, forEach o (rescaleStep L nb same ctIn) (pool, ctOut) = .ok (pool', r) ∧
      CtIs r (L - nb) K (fun id => divSeq (F id) L nb) := by
  obtain ⟨⟨pool', r⟩, e, _, w, m, a⟩ := mapLoop (C := C) (fun t : RQ C × Ct C => t.2)
    (body := rescaleStep L nb same ctIn) (t0 := (pool, ctOut)) (o := o)
    (P := fun id p => id ∈ K ∧ p.len = L + 1 ∧ p.isNTT = false ∧
      (same = true → ∀ i ≤ L, p.row i = F id i))
    (P' := fun id p => p.len = L - nb + 1 ∧ p.isNTT = false ∧
      ∀ i ≤ L - nb, p.row i = divSeq (F id) L nb i) (J := fun _ => True) H.wf ho trivial
    (fun id p hp => ⟨(H.mem id).mp (GoMap.mem_keys_of_get? hp), H.len _ _ hp, H.ntt _ _ hp,
      fun hs i hi => by rw [← hsame hs]; exact H.rows _ _ hp i hi⟩) (by
      rintro a ⟨pl, t⟩ p _ hp ⟨haK, hl, hn, hr⟩ _
      obtain ⟨p0, hp0, hr0⟩ : ∃ p0, (if same then t else ctIn).value.get? a = some p0 ∧
          ∀ i ≤ L, p0.row i = F a i := by
        cases same with
        | true => exact ⟨p, hp, hr rfl⟩
        | false =>
          obtain ⟨p0, h1, _, _, h2⟩ := (hin rfl).get haK
          exact ⟨p0, h1, h2⟩
      refine ⟨((divRoundManyLvl L nb p0 pl p).1,
        ⟨t.value.set a ((divRoundManyLvl L nb p0 pl p).2.truncate (L + 1 - nb))⟩),
        (divRoundManyLvl L nb p0 pl p).2.truncate (L + 1 - nb), ?_, trivial, rfl, ?_, ?_, ?_⟩
      · unfold rescaleStep
        dsimp only at hp ⊢
        simp only [GoMap.deref_of_get? hp0, GoMap.deref_of_get? hp, Go.ok_bind, Go.pure_eq]
      · simp only [RPoly.truncate]; omega
      · exact (divRoundMany_len L nb p0 pl p).2.trans hn
      · intro i hi
        have := divRoundMany_row hnb hle p0 pl p i (by omega)
        simp only [RPoly.truncate]
        rw [this]
        exact divSeq_congr hr0 nb i (by omega))
  exact ⟨pool', r, e, w, fun id => (m id).trans (H.mem id), fun id p hp => (a id p hp).1,
    fun id p hp => (a id p hp).2.1, fun id p hp => (a id p hp).2.2⟩

end MK
