import Verif.HeapSim

/-!
# Every evaluator operation on pointers does what it does on values

The operations of `Verif/Heap.lean` against those of `Verif/Evaluator.lean`.
-/

noncomputable section

namespace MK

open Mem

variable {C : Ctx} {α β γ σ τ : Type}

/-- The evaluator's pools: allocated, their polynomials distinct. -/
structure PoolOk (h : Heap C) (P : Pools) : Prop where
  valid : h.Valid P.pool
  own : h.Own P.pool
  polyQ_lt : P.polyQ < h.next
  polyQ : P.polyQ ∉ h.polys P.pool

/-- A ciphertext that shares nothing with the evaluator's pools (it may share components with other
ciphertexts, or with itself). -/
structure Sep (h : Heap C) (P : Pools) (x : ℕ) : Prop where
  lt : x < h.next
  valid : h.Valid (h.cct x).1
  ne : (h.cct x).1 ≠ P.pool
  disj : Disjoint (h.polys (h.cct x).1) (h.polys P.pool)
  polyQ : P.polyQ ∉ h.polys (h.cct x).1

/-- What an operation of the evaluator leaves alone: besides its pools, only scales of `B` and
polynomials of `S`. -/
structure EvFr (P : Pools) (B S : Set ℕ) (h h' : Heap C) : Prop where
  fr : Fr {P.pool} B (S ∪ (h.polys P.pool ∪ {P.polyQ})) h h'
  ok : PoolOk h' P
  pool : h'.polys P.pool ⊆ h.polys P.pool ∪ {p | h.next ≤ p}
  cct1 : ∀ x < h.next, (h'.cct x).1 = (h.cct x).1

variable {h h' h'' : Heap C} {P : Pools}

theorem EvFr.refl (ok : PoolOk h P) (B S : Set ℕ) : EvFr P B S h h :=
  ⟨Fr.refl _ _ _ _, ok, Set.subset_union_left, fun _ _ => rfl⟩

theorem EvFr.trans {B S B' S' : Set ℕ} (w : EvFr P B S h h') (w' : EvFr P B' S' h' h'')
    (hB : ∀ a < h.next, a ∈ B' → a ∈ B) (hS : ∀ a < h.next, a ∈ S' → a ∈ S) : EvFr P B S h h'' := by
  refine ⟨w.fr.trans w'.fr (fun _ _ h => h) hB ?_, w'.ok, ?_, fun x hx =>
    (w'.cct1 x (hx.trans_le w.fr.next)).trans (w.cct1 x hx)⟩
  · rintro a ha (hs | hp | hq)
    · exact Or.inl (hS a ha hs)
    · rcases w.pool hp with hp | hp
      · exact Or.inr (Or.inl hp)
      · exact absurd ha (not_lt.mpr hp)
    · exact Or.inr (Or.inr hq)
  · intro p hp
    rcases w'.pool hp with hp | hp
    · exact w.pool hp
    · exact Or.inr (w.fr.next.trans hp)

theorem Sep.cct_eq {B S : Set ℕ} (w : EvFr P B S h h') {x : ℕ} (hs : Sep h P x) :
    (h'.cct x).1 = (h.cct x).1 := w.cct1 x hs.lt

/-- Ciphertexts that share nothing with the pools and are not written stay that way and keep their
components. -/
theorem Sep.step {B S : Set ℕ} (w : EvFr P B S h h') {x : ℕ} (hs : Sep h P x) : Sep h' P x := by
  have e := hs.cct_eq w
  have hp : h'.polys (h.cct x).1 = h.polys (h.cct x).1 := w.fr.polys hs.valid (by simpa using hs.ne)
  refine ⟨hs.lt.trans_le w.fr.next, ?_, ?_, ?_, ?_⟩
  · rw [e]; exact w.fr.valid hs.valid (by simpa using hs.ne)
  · rw [e]; exact hs.ne
  · rw [e, hp, Set.disjoint_left]
    intro p h1 h2
    rcases w.pool h2 with h2 | h2
    · exact Set.disjoint_left.mp hs.disj h1 h2
    · exact absurd (hs.valid.polys p h1) (not_lt.mpr h2)
  · rw [e, hp]; exact hs.polyQ

theorem Sep.viewCt {B S : Set ℕ} (w : EvFr P B S h h') {x : ℕ} (hs : Sep h P x)
    (hd : Disjoint (h.polys (h.cct x).1) S) : h'.viewCt (h.cct x).1 = h.viewCt (h.cct x).1 := by
  refine w.fr.viewCt hs.valid (by simpa using hs.ne) ?_
  rw [Set.disjoint_union_right, Set.disjoint_union_right]
  exact ⟨hd, hs.disj, Set.disjoint_singleton_right.mpr hs.polyQ⟩

theorem Sep.view {B S : Set ℕ} (w : EvFr P B S h h') {x : ℕ} (hs : Sep h P x) (hB : x ∉ B)
    (hd : Disjoint (h.polys (h.cct x).1) S) : h'.view x = h.view x := by
  have hv := hs.viewCt w hd
  unfold Heap.view
  rw [w.fr.cct x hs.lt hB, hv]

/-! ## Steps of the frame -/

/-- Writing components of `b` only. -/
theorem EvFr.ofWr {B S : Set ℕ} (ok : PoolOk h P) (w : Wr B S h h') : EvFr P B S h h' :=
  ⟨w.fr.mono (by simp) subset_rfl Set.subset_union_left,
    ⟨w.valid ok.valid, w.own ok.own, by rw [w.next]; exact ok.polyQ_lt, by
      rw [w.polys]; exact ok.polyQ⟩, by rw [w.polys]; exact Set.subset_union_left,
    fun x _ => w.cct1 x⟩

/-- Padding the pool. -/
theorem EvFr.ofGrow (ok : PoolOk h P) (g : Grow P.pool h h') : EvFr P ∅ ∅ h h' := by
  refine ⟨g.fr.mono subset_rfl subset_rfl (by simp), ⟨g.valid, g.own, ok.polyQ_lt.trans_le g.fr.next, ?_⟩,
    g.polys, fun x hx => by rw [g.fr.cct x hx (by simp)]⟩
  intro hq
  rcases g.polys hq with hq | hq
  · exact ok.polyQ hq
  · exact absurd ok.polyQ_lt (not_lt.mpr hq)

/-- Allocating objects. -/
theorem EvFr.ofFr (ok : PoolOk h P) (g : Fr ∅ ∅ ∅ h h') : EvFr P ∅ ∅ h h' := by
  have hp : h'.polys P.pool = h.polys P.pool := g.polys ok.valid (by simp)
  refine ⟨g.mono (by simp) subset_rfl (by simp), ⟨g.valid ok.valid (by simp), g.own ok.valid (by simp) ok.own,
    ok.polyQ_lt.trans_le g.next, by rw [hp]; exact ok.polyQ⟩, by rw [hp]; exact Set.subset_union_left,
    fun x hx => by rw [g.cct x hx (by simp)]⟩

theorem Fr.ofNewCCt (h : Heap C) (a : ℕ) (s : ℚ) :
    Fr ∅ ∅ ∅ h { h with cct := Function.update h.cct h.next (a, s), next := h.next + 1 } :=
  ⟨Nat.le_succ _, fun _ _ _ => rfl, fun _ hx _ => Function.update_of_ne hx.ne _ _, fun _ _ _ => rfl⟩

/-! ## New ciphertexts -/

/-- A new `mkckks.Ciphertext` at `x` with contents `c`; what was there before is unchanged. -/
structure NewC (h h' : Heap C) (x : ℕ) (c : CCt C) : Prop where
  view : h'.view x = c
  fresh : h.next ≤ x
  lt : x < h'.next
  ctFresh : h.next ≤ (h'.cct x).1
  valid : h'.Valid (h'.cct x).1
  own : h'.Own (h'.cct x).1
  polys : ∀ p ∈ h'.polys (h'.cct x).1, h.next ≤ p
  fr : Fr ∅ ∅ ∅ h h'

theorem NewCt.newC {a : ℕ} {c : Ct C} (n : NewCt h h' a c) (s : ℚ) :
    NewC h { h' with cct := Function.update h'.cct h'.next (a, s), next := h'.next + 1 } h'.next
      ⟨c, s⟩ := by
  have e : Function.update h'.cct h'.next (a, s) h'.next = (a, s) := Function.update_self _ _ _
  have f := Fr.ofNewCCt h' a s
  refine ⟨?_, n.fr.next, Nat.lt_succ_self _, ?_, ?_, ?_, ?_, ?_⟩
  · unfold Heap.view
    simp only [e]
    exact congrArg (fun v => (⟨v, s⟩ : CCt C)) n.view
  · simp only [e]; exact n.fresh
  · simp only [e]; exact f.valid n.valid (by simp)
  · simp only [e]; exact n.own
  · simp only [e]; exact n.polys
  · exact n.fr.trans f (by simp) (by simp) (by simp)

theorem newCCiphertext_sim (h : Heap C) (level : ℕ) (o : List String) (s : ℚ) :
    Sim h (newCCiphertext level o s) (.ok (CCt.new level o s)) (NewC h) := by
  unfold newCCiphertext
  refine Sim.bind (k' := fun c => .ok (⟨c, s⟩ : CCt C)) (newCiphertext_sim h level o) ?_
  intro h' a c n
  exact Sim.newCCt_end (n.newC s)

theorem copyNewC_sim {x : ℕ} (hv : h.Valid (h.cct x).1) (hx : x < h.next) (o : List String) :
    Sim h (copyNewC x o) ((h.view x).CopyNew o) (NewC h) := by
  unfold copyNewC CCt.CopyNew
  refine Sim.ctOf_bind ?_
  refine Sim.bind (copyNew_sim hv o) ?_
  intro h' a c n
  refine Sim.scaleOf_bind ?_
  rw [n.fr.cct x hx (by simp)]
  exact Sim.newCCt_end (n.newC _)

/-- A new ciphertext shares nothing with the pools. -/
theorem NewC.sep {x : ℕ} {c : CCt C} (n : NewC h h' x c) (ok : PoolOk h P) : Sep h' P x := by
  refine ⟨n.lt, n.valid, ?_, ?_, ?_⟩
  · exact fun he => absurd ok.valid.lt (not_lt.mpr (he ▸ n.ctFresh))
  · rw [n.fr.polys ok.valid (by simp), Set.disjoint_left]
    exact fun p h1 h2 => absurd (ok.valid.polys p h2) (not_lt.mpr (n.polys p h1))
  · exact fun he => absurd ok.polyQ_lt (not_lt.mpr (n.polys _ he))

/-- Nor with any older ciphertext. -/
theorem NewC.disj {x : ℕ} {c : CCt C} (n : NewC h h' x c) {a : ℕ} (hv : h.Valid a) :
    Disjoint (h'.polys a) (h'.polys (h'.cct x).1) := by
  rw [n.fr.polys hv (by simp), Set.disjoint_left]
  exact fun p h1 h2 => absurd (hv.polys p h1) (not_lt.mpr (n.polys p h2))

theorem Fr.viewEv {ev : HEv C} (w : Fr ∅ ∅ ∅ h h') (ok : PoolOk h ev.toPools) :
    h'.viewEv ev = h.viewEv ev := by
  unfold Heap.viewEv
  rw [w.viewCt ok.valid (by simp) (by simp), w.poly _ ok.polyQ_lt (by simp)]

theorem NewC.viewEv {x : ℕ} {c : CCt C} (n : NewC h h' x c) {ev : HEv C}
    (ok : PoolOk h ev.toPools) : h'.viewEv ev = h.viewEv ev := n.fr.viewEv ok

theorem newCiphertextBinary_sim {x0 x1 : ℕ} (π : Sched) :
    Sim h (Mem.newCiphertextBinary x0 x1 π) (MK.newCiphertextBinary (h.view x0) (h.view x1) π)
      (NewC h) := by
  unfold Mem.newCiphertextBinary MK.newCiphertextBinary
  refine Sim.ctOf_bind (Sim.ctOf_bind ?_)
  refine Sim.level_bind (a := (h.cct x0).1) rfl fun l0 _ => ?_
  refine Sim.level_bind (a := (h.cct x1).1) rfl fun l1 _ => ?_
  refine Sim.keysOf_bind ?_
  rw [show (h.ct (h.cct x0).1).keys = (h.view x0).ct.value.keys from (h.viewCt_keys _).symm]
  refine Sim.lift_bind fun s0 _ => ?_
  refine Sim.keysOf_bind ?_
  rw [show (h.ct (h.cct x1).1).keys = (h.view x1).ct.value.keys from (h.viewCt_keys _).symm]
  refine Sim.lift_bind fun s1 _ => ?_
  refine Sim.lift_bind fun s _ => ?_
  refine Sim.scaleOf_bind (Sim.scaleOf_bind ?_)
  exact newCCiphertext_sim h _ _ _

/-! ## Addition and subtraction -/

theorem Sep.valid' {x : ℕ} (hs : Sep h P x) : h.Valid (h.cct x).1 := hs.valid

/-- The alignment of scales when the output is neither operand. -/
theorem alignOperands_sim {ev : HEv C} (ok : PoolOk h ev.toPools) {c0 c1 y : ℕ}
    (s0 : Sep h ev.toPools c0) (s1 : Sep h ev.toPools c1) (h0 : y ≠ c0) (h1 : y ≠ c1) (prm : CPar C)
    (so : ℚ) (π : Sched) :
    Sim h (Mem.alignOperands prm ev c0 c1 y (h.cct c0).2 (h.cct c1).2 so π)
      (prm.alignOperands (h.view c0) (h.view c1) (h.viewCt ev.pool) so π)
      fun h' t r => h'.viewCt ev.pool = r.1 ∧ h'.viewCt t.1 = r.2.1 ∧ h'.viewCt t.2 = r.2.2 ∧
        (t.1 = (h.cct c0).1 ∨ t.1 = ev.pool) ∧ (t.2 = (h.cct c1).1 ∨ t.2 = ev.pool) ∧
        h'.ct = h.ct ∧ h'.poly ev.polyQ = h.poly ev.polyQ ∧ EvFr ev.toPools ∅ ∅ h h' := by
  -- multiplying `c` into the pool
  have mul : ∀ (c : ℕ) (r : ℚ) (π : Sched), Sep h ev.toPools c →
      Sim h (do
        let u ← newCCt (h.cct c).1 (h.cct c).2
        let v ← newCCt ev.pool so
        Mem.multByConst prm u (.f64 r) v π)
      (prm.MultByConst (h.view c) (.f64 r) ⟨h.viewCt ev.pool, so⟩ π)
      fun h' _ t => h'.viewCt ev.pool = t.ct ∧ h'.ct = h.ct ∧ h'.poly ev.polyQ = h.poly ev.polyQ ∧ EvFr ev.toPools ∅ ∅ h h' := by
    intro c r π hs
    refine Sim.newCCt_bind (Sim.newCCt_bind ?_)
    set h2 : Heap C := _
    have f1 := Fr.ofNewCCt h (h.cct c).1 (h.cct c).2
    have f2 : Fr ∅ ∅ ∅ h h2 := f1.trans (Fr.ofNewCCt _ ev.pool so) (by simp) (by simp) (by simp)
    have eu : h2.cct h.next = ((h.cct c).1, (h.cct c).2) := by
      show Function.update (Function.update h.cct h.next _) (h.next + 1) _ h.next = _
      rw [Function.update_of_ne (by omega), Function.update_self]
    have ev' : h2.cct (h.next + 1) = (ev.pool, so) := by
      show Function.update (Function.update h.cct h.next _) (h.next + 1) _ (h.next + 1) = _
      rw [Function.update_self]
    have hm := multByConst_sim (h := h2) (x := h.next) (y := h.next + 1)
      (by rw [ev']; exact ok.own)
      (by rw [ev', eu]; exact ⟨hs.valid.wf, hs.disj⟩) prm (.f64 r) π
    have e1 : h2.view h.next = h.view c := by unfold Heap.view; rw [eu]; rfl
    have e2 : h2.view (h.next + 1) = ⟨h.viewCt ev.pool, so⟩ := by unfold Heap.view; rw [ev']; rfl
    rw [e1, e2, ev'] at hm
    refine hm.mono ?_
    rintro h3 _ t ⟨hv, w⟩
    refine ⟨?_, w.ct, (w.poly _ (by exact ok.polyQ)).trans rfl, ?_⟩
    · rw [← hv]
      show _ = h3.viewCt (h3.cct (h.next + 1)).1
      rw [w.cct1, ev']
    · have k := EvFr.ofFr ok f2
      have k2 : EvFr ev.toPools {h.next + 1} (h2.polys ev.pool) h2 h3 := EvFr.ofWr k.ok w
      have fr : Fr {ev.pool} ∅ (∅ ∪ (h.polys ev.pool ∪ {ev.polyQ})) h h3 := by
        refine k.fr.trans w.fr (by simp) ?_ ?_
        · intro a ha hm
          rw [Set.mem_singleton_iff] at hm; omega
        · intro a _ hm; exact Or.inr (Or.inl hm)
      exact ⟨fr, k2.ok, by rw [w.polys]; exact Set.subset_union_left, fun x hx => by
        rw [w.cct1, f2.cct x hx (by simp)]⟩
  have rd : ∀ (c : ℕ) (h' : Heap C), Sep h ev.toPools c → EvFr ev.toPools ∅ ∅ h h' →
      h'.viewCt (h.cct c).1 = (h.view c).ct := fun c h' hs w => hs.viewCt w (by simp)
  unfold Mem.alignOperands CPar.alignOperands
  refine Sim.ctOf_bind (Sim.ctOf_bind (Sim.ctOf_bind ?_))
  rw [if_neg h0, if_neg h1]
  by_cases hc0 : (h.cct c0).2 < (h.cct c1).2 ∧ 1 < prm.ratio (h.cct c1).2 (h.cct c0).2
  · rw [if_pos hc0, if_pos (show (h.view c0).scale < (h.view c1).scale ∧
      1 < prm.ratio (h.view c1).scale (h.view c0).scale from hc0)]
    have := Sim.bind (k := fun _ => (pure (ev.pool, (h.cct c1).1) : HM C (ℕ × ℕ)))
      (k' := fun t => (.ok (t.ct, t.ct, (h.view c1).ct) : Go (Ct C × Ct C × Ct C)))
      (R := fun h' t r => h'.viewCt ev.pool = r.1 ∧ h'.viewCt t.1 = r.2.1 ∧ h'.viewCt t.2 = r.2.2 ∧
        (t.1 = (h.cct c0).1 ∨ t.1 = ev.pool) ∧ (t.2 = (h.cct c1).1 ∨ t.2 = ev.pool) ∧
        h'.ct = h.ct ∧ h'.poly ev.polyQ = h.poly ev.polyQ ∧ EvFr ev.toPools ∅ ∅ h h')
      (mul c0 (prm.ratio (h.cct c1).2 (h.cct c0).2) (π.sub 7) s0)
      (fun h' _ t ⟨a, b, q, w⟩ => Sim.pure ⟨a, a, rd c1 h' s1 w, Or.inr rfl, Or.inl rfl, b, q, w⟩)
    simp only [bind_assoc] at this; exact this
  · rw [if_neg hc0, if_neg (show ¬ ((h.view c0).scale < (h.view c1).scale ∧
      1 < prm.ratio (h.view c1).scale (h.view c0).scale) from hc0)]
    by_cases hc1 : (h.cct c1).2 < (h.cct c0).2 ∧ 1 < prm.ratio (h.cct c0).2 (h.cct c1).2
    · rw [if_pos hc1, if_pos (show (h.view c1).scale < (h.view c0).scale ∧
        1 < prm.ratio (h.view c0).scale (h.view c1).scale from hc1)]
      have := Sim.bind (k := fun _ => (pure ((h.cct c0).1, ev.pool) : HM C (ℕ × ℕ)))
        (k' := fun t => (.ok (t.ct, (h.view c0).ct, t.ct) : Go (Ct C × Ct C × Ct C)))
        (R := fun h' t r => h'.viewCt ev.pool = r.1 ∧ h'.viewCt t.1 = r.2.1 ∧ h'.viewCt t.2 = r.2.2 ∧
          (t.1 = (h.cct c0).1 ∨ t.1 = ev.pool) ∧ (t.2 = (h.cct c1).1 ∨ t.2 = ev.pool) ∧
          h'.ct = h.ct ∧ h'.poly ev.polyQ = h.poly ev.polyQ ∧ EvFr ev.toPools ∅ ∅ h h')
        (mul c1 (prm.ratio (h.cct c0).2 (h.cct c1).2) (π.sub 8) s1)
        (fun h' _ t ⟨a, b, q, w⟩ => Sim.pure ⟨a, rd c0 h' s0 w, a, Or.inl rfl, Or.inr rfl, b, q, w⟩)
      simp only [bind_assoc] at this; exact this
    · rw [if_neg hc1, if_neg (show ¬ ((h.view c1).scale < (h.view c0).scale ∧
        1 < prm.ratio (h.view c0).scale (h.view c1).scale) from hc1)]
      exact Sim.pure ⟨rfl, rfl, rfl, Or.inl rfl, Or.inl rfl, rfl, rfl, EvFr.refl ok _ _⟩

/-- `evaluateInPlace` on pointers, when the output shares nothing with the operands (which may share
with each other). -/
theorem evaluateInPlace_sim {ev : HEv C} (ok : PoolOk h ev.toPools) {c0 c1 y : ℕ}
    (s0 : Sep h ev.toPools c0) (s1 : Sep h ev.toPools c1) (sy : Sep h ev.toPools y)
    (ho : h.Own (h.cct y).1) (d0 : Disjoint (h.polys (h.cct c0).1) (h.polys (h.cct y).1))
    (d1 : Disjoint (h.polys (h.cct c1).1) (h.polys (h.cct y).1)) (n0 : y ≠ c0) (n1 : y ≠ c1)
    (prm : CPar C) (evaluate : PolyOp C) (π : Sched) :
    Sim h (Mem.evaluateInPlace prm ev c0 c1 y evaluate π)
      ((h.viewEv ev).evaluateInPlace prm (h.view c0) (h.view c1) (h.view y) evaluate π)
      fun h' _ r => h'.viewEv ev = r.1 ∧ h'.view y = r.2 ∧
        EvFr ev.toPools ∅ (h.polys (h.cct y).1) h h' := by
  unfold Mem.evaluateInPlace Ev.evaluateInPlace
  refine Sim.ctOf_bind (Sim.ctOf_bind (Sim.ctOf_bind (Sim.keysOf_bind ?_)))
  rw [show (h.ct (h.cct c0).1).keys = (h.view c0).ct.value.keys from (h.viewCt_keys _).symm]
  refine Sim.lift_bind fun i0 _ => Sim.keysOf_bind ?_
  rw [show (h.ct (h.cct c1).1).keys = (h.view c1).ct.value.keys from (h.viewCt_keys _).symm]
  refine Sim.lift_bind fun i1 _ => Sim.lift_bind fun iu _ => Sim.keysOf_bind ?_
  rw [show (h.ct ev.pool).keys = (h.viewEv ev).pool.value.keys from (h.viewCt_keys _).symm]
  refine Sim.bind (padCiphertext_sim ok.valid ok.own _ _) ?_
  rintro h1 _ pool ⟨hp1, g1⟩
  have w1 : EvFr ev.toPools ∅ ∅ h h1 := EvFr.ofGrow ok g1
  have v1 : ∀ {x}, Sep h ev.toPools x → h1.viewCt (h.cct x).1 = (h.view x).ct := fun hs =>
    hs.viewCt w1 (by simp)
  refine Sim.level_bind (v1 s0) fun l0 _ => Sim.level_bind (v1 s1) fun l1 _ =>
    Sim.level_bind (v1 sy) fun lo _ => ?_
  refine Sim.scaleOf_bind (Sim.scaleOf_bind (Sim.scaleOf_bind ?_))
  have p1 : ∀ {x}, Sep h ev.toPools x → h1.polys (h.cct x).1 = h.polys (h.cct x).1 := fun hs =>
    w1.fr.polys hs.valid (by simpa using hs.ne)
  have py1 := p1 sy
  have own1 : h1.Own (h.cct y).1 := w1.fr.own sy.valid (by simpa using sy.ne) ho
  -- everything after dropping levels of the output
  have rest : ∀ (h2 : Heap C) (out : Ct C), Upd (h.cct y).1 h1 h2 out →
      Sim h2 (do
        let t ← Mem.alignOperands prm ev c0 c1 y (h1.cct c0).2 (h1.cct c1).2 (h1.cct y).2 π
        let p0 ← load t.1 "0"
        let p1 ← load t.2 "0"
        let o ← load (h.cct y).1 "0"
        store (h.cct y).1 "0" (evaluate (min (min l0 l1) lo) p0 p1 o)
        let k ← keysOf (h.cct y).1
        let outIds ← idSet (π.f 9 k)
        Mem.forEach (π.f 10 (GoMap.keys outIds))
          (Mem.evalStep evaluate (min (min l0 l1) lo) i0 i1 t.1 t.2 (h.cct y).1) ())
      (do
        let (pool, tmp0, tmp1) ← prm.alignOperands (h.view c0) (h.view c1) pool (h.view y).scale π
        let p0 ← tmp0.value.deref "0"
        let p1 ← tmp1.value.deref "0"
        let o ← out.value.deref "0"
        let out : Ct C := ⟨out.value.set "0" (evaluate (min (min l0 l1) lo) p0 p1 o)⟩
        let outIds ← out.IDSet (π.f 9 out.value.keys)
        let out ← MK.forEach (π.f 10 (GoMap.keys outIds))
          (MK.evalStep evaluate (min (min l0 l1) lo) i0 i1 tmp0 tmp1) out
        return (({ h.viewEv ev with pool := pool } : Ev C), (⟨out, (h.view y).scale⟩ : CCt C)))
      fun h' _ r => h'.viewEv ev = r.1 ∧ h'.view y = r.2 ∧
        EvFr ev.toPools ∅ (h.polys (h.cct y).1) h h' := by
    intro h2 out hu2
    have w2' : EvFr ev.toPools ∅ (h1.polys (h.cct y).1) h1 h2 := EvFr.ofWr w1.ok hu2.2
    rw [p1 sy] at w2'
    have w2 : EvFr ev.toPools ∅ (h.polys (h.cct y).1) h h2 :=
      EvFr.trans ⟨w1.fr.mono subset_rfl subset_rfl (Set.union_subset_union_left _ (by simp)), w1.ok,
        w1.pool, w1.cct1⟩ w2' (by simp) (fun a _ h => h)
    have q0 := s0.step w2
    have q1 := s1.step w2
    have qy := sy.step w2
    have e0 : h2.view c0 = h.view c0 := s0.view w2 (by simp) d0
    have e1 : h2.view c1 = h.view c1 := s1.view w2 (by simp) d1
    have ep : h2.viewCt ev.pool = pool := by
      rw [← hp1]
      refine hu2.2.viewCt g1.valid.wf ?_
      rw [p1 sy]
      exact ((sy.step w1).disj.mono_left (by rw [sy.cct_eq w1, p1 sy])).symm
    have hal := alignOperands_sim w2.ok q0 q1 n0 n1 prm (h1.cct y).2 π
    rw [e0, e1, ep] at hal
    have f0 : h2.cct c0 = h1.cct c0 := hu2.2.cct c0 (by simp)
    have f1 : h2.cct c1 = h1.cct c1 := hu2.2.cct c1 (by simp)
    have fy : h1.cct y = h.cct y := w1.fr.cct y sy.lt (by simp)
    rw [f0, f1] at hal
    rw [show (h.view y).scale = (h1.cct y).2 by rw [fy]; rfl]
    refine Sim.bind hal ?_
    rintro h3 ⟨t0, t1⟩ ⟨pool', tmp0, tmp1⟩ ⟨vp, v0, v1', ht0, ht1, hct, hq3, w3⟩
    have w23 : EvFr ev.toPools ∅ (h.polys (h.cct y).1) h h3 := w2.trans w3 (by simp) (by simp)
    have pp : ∀ {x}, Sep h ev.toPools x → h3.polys (h.cct x).1 = h.polys (h.cct x).1 := fun hs =>
      w23.fr.polys hs.valid (by simpa using hs.ne)
    have own3 : h3.Own (h.cct y).1 := w23.fr.own sy.valid (by simpa using sy.ne) ho
    have vb : h3.viewCt (h.cct y).1 = out := by
      have := qy.viewCt w3 (by simp)
      rw [sy.cct_eq w2] at this
      rw [this]; exact hu2.1
    have dp : Disjoint (h3.polys ev.pool) (h3.polys (h.cct y).1) := by
      have := (sy.step w23).disj
      rw [sy.cct_eq w23] at this
      exact this.symm
    have rd : ∀ {t c}, Sep h ev.toPools c → Disjoint (h.polys (h.cct c).1) (h.polys (h.cct y).1) →
        (t = (h.cct c).1 ∨ t = ev.pool) → Rd (h.cct y).1 h3 t := by
      rintro t c hs hd (rfl | rfl)
      · exact ⟨(w23.fr.valid hs.valid (by simpa using hs.ne)).wf, by rw [pp hs, pp sy]; exact hd⟩
      · exact ⟨w23.ok.valid.wf, dp⟩
    have r0 : Rd (h.cct y).1 h3 t0 := rd s0 d0 (by rw [← s0.cct_eq w1]; exact ht0)
    have r1 : Rd (h.cct y).1 h3 t1 := rd s1 d1 (by rw [← s1.cct_eq w1]; exact ht1)
    simp only at v0 v1' vp
    subst v0 v1'
    have hu3 : Upd (h.cct y).1 h3 h3 out := ⟨vb, Wr.refl _ _ _⟩
    refine Sim.load_bind rfl fun p0 _ => Sim.load_bind rfl fun p1 _ => Sim.load_bind vb fun o ho' => ?_
    refine Sim.store_upd hu3 own3 ho' fun h4 hu4 => ?_
    refine Sim.keysOf_bind ?_
    rw [show (h4.ct (h.cct y).1).keys = (out.value.set "0" (evaluate (min (min l0 l1) lo) p0 p1 o)).keys
      by rw [← Heap.viewCt_keys, hu4.1]]
    refine Sim.lift_bind fun oi _ => ?_
    have loop := Sim.forEach (R := RelU (h.cct y).1 h3) (s := ()) (π.f 10 (GoMap.keys oi))
      (body := Mem.evalStep evaluate (min (min l0 l1) lo) i0 i1 t0 t1 (h.cct y).1)
      (body' := MK.evalStep evaluate (min (min l0 l1) lo) i0 i1 (h3.viewCt t0) (h3.viewCt t1))
      (by
        intro id _ h5 _ c hu
        unfold Mem.evalStep MK.evalStep
        split
        · refine Sim.load_bind (hu.read r1) fun q _ => Sim.load_bind hu.1 fun o ho => ?_
          exact Sim.store_upd_end hu own3 ho fun h' hu' => hu'
        · split
          · refine Sim.load_bind (hu.read r0) fun q _ => Sim.load_bind hu.1 fun o ho => ?_
            exact Sim.store_upd_end hu own3 ho fun h' hu' => hu'
          · refine Sim.load_bind (hu.read r0) fun q _ => Sim.load_bind (hu.read r1) fun q' _ =>
              Sim.load_bind hu.1 fun o ho => ?_
            exact Sim.store_upd_end hu own3 ho fun h' hu' => hu') hu4
    have fin := Sim.bind loop (k := fun _ => (pure () : HM C Unit)) (k' := fun out =>
      (.ok (({ h.viewEv ev with pool := pool' } : Ev C), (⟨out, (h1.cct y).2⟩ : CCt C)) :
        Go (Ev C × CCt C))) (R := fun h' _ r => h'.viewEv ev = r.1 ∧ h'.view y = r.2 ∧
        EvFr ev.toPools ∅ (h.polys (h.cct y).1) h h') (by
      rintro h5 _ res hu5
      have w5 : EvFr ev.toPools ∅ (h3.polys (h.cct y).1) h3 h5 := EvFr.ofWr w23.ok hu5.2
      rw [pp sy] at w5
      have w := w23.trans w5 (by simp) (fun a _ h => h)
      refine Sim.pure ⟨?_, ?_, w⟩
      · unfold Heap.viewEv
        simp only
        rw [hu5.2.viewCt w23.ok.valid.wf dp, vp]
        congr 1
        have hq : ev.polyQ ∉ h.polys (h.cct y).1 := sy.polyQ
        rw [hu5.2.poly _ (by rw [pp sy]; exact hq), hq3, hu2.2.poly _ (by rw [py1]; exact hq),
          g1.fr.poly _ ok.polyQ_lt (by simp)]
      · unfold Heap.view
        rw [w.fr.cct y sy.lt (by simp), hu5.1, fy])
    simpa using fin
  have hu1 : Upd (h.cct y).1 h1 h1 (h.view y).ct := by
    have := Upd.refl (h.cct y).1 h1
    rwa [v1 sy] at this
  refine Sim.keysOf_bind ?_
  dsimp only
  by_cases hl : min (min l0 l1) lo < lo
  · rw [if_pos hl, if_pos hl,
      show (h1.ct (h.cct y).1).keys = (h.view y).ct.value.keys by rw [← v1 sy, Heap.viewCt_keys]]
    exact Sim.bind (dropLevel_sim own1 hu1 _ _) fun h2 _ out hu2 => rest h2 out hu2
  · rw [if_neg hl, if_neg hl]
    exact rest h1 _ hu1

/-! ## Results -/

/-- The result of an operation: a new ciphertext at `y` with contents `c`, whose components are new
polynomials, all distinct.  Besides the pools, nothing allocated before has changed. -/
structure NewRes (P : Pools) (h h' : Heap C) (y : ℕ) (c : CCt C) : Prop where
  view : h'.view y = c
  fresh : h.next ≤ y
  ctFresh : h.next ≤ (h'.cct y).1
  sep : Sep h' P y
  own : h'.Own (h'.cct y).1
  polys : ∀ p ∈ h'.polys (h'.cct y).1, h.next ≤ p
  fr : EvFr P ∅ ∅ h h'

theorem EvFr.mono {B S B' S' : Set ℕ} (w : EvFr P B S h h') (hB : B ⊆ B') (hS : S ⊆ S') :
    EvFr P B' S' h h' :=
  ⟨w.fr.mono subset_rfl hB (Set.union_subset_union_left _ hS), w.ok, w.pool, w.cct1⟩

theorem NewC.res {y : ℕ} {c r : CCt C} {B : Set ℕ} (n : NewC h h' y c) (ok : PoolOk h P)
    (hB : ∀ b ∈ B, h.next ≤ b)
    (w : EvFr P B (h'.polys (h'.cct y).1) h' h'') (hv : h''.view y = r) : NewRes P h h'' y r := by
  have s := n.sep ok
  have e := s.cct_eq w
  have hp : h''.polys (h'.cct y).1 = h'.polys (h'.cct y).1 :=
    w.fr.polys n.valid (by simpa using s.ne)
  refine ⟨hv, n.fresh, by rw [e]; exact n.ctFresh, s.step w,
    by rw [e]; exact w.fr.own n.valid (by simpa using s.ne) n.own,
    by rw [e, hp]; exact n.polys, ?_⟩
  refine EvFr.trans (EvFr.ofFr ok n.fr) w ?_ ?_
  · intro a ha hb; exact absurd ha (not_lt.mpr (hB a hb))
  · intro a ha hb; exact absurd ha (not_lt.mpr (n.polys a hb))

theorem NewRes.pools {y : ℕ} {c : CCt C} (n : NewRes P h h' y c) : PoolOk h' P := n.fr.ok

/-- What the evaluator did not create keeps its contents. -/
theorem NewRes.keeps {y : ℕ} {c : CCt C} (n : NewRes P h h' y c) {x : ℕ} (hs : Sep h P x) :
    Sep h' P x ∧ h'.view x = h.view x ∧ x ≠ y ∧ (h'.cct x).1 ≠ (h'.cct y).1 ∧
      Disjoint (h'.polys (h'.cct x).1) (h'.polys (h'.cct y).1) := by
  refine ⟨hs.step n.fr, hs.view n.fr (by simp) (by simp), (hs.lt.trans_le n.fresh).ne, ?_, ?_⟩
  · rw [hs.cct_eq n.fr]; exact (hs.valid.lt.trans_le n.ctFresh).ne
  · rw [hs.cct_eq n.fr, n.fr.fr.polys hs.valid (by simpa using hs.ne), Set.disjoint_left]
    exact fun p h1 h2 => absurd (hs.valid.polys p h1) (not_lt.mpr (n.polys p h2))

/-- The relation between the results of an operation on pointers and on values. -/
abbrev ResEv (ev : HEv C) (h : Heap C) : Heap C → HEv C × ℕ → Ev C × CCt C → Prop :=
  fun h' t r => t.1.toPools = ev.toPools ∧ h'.viewEv t.1 = r.1 ∧ NewRes ev.toPools h h' t.2 r.2

theorem AddNew_sim {ev : HEv C} (ok : PoolOk h ev.toPools) {x0 x1 : ℕ} (s0 : Sep h ev.toPools x0)
    (s1 : Sep h ev.toPools x1) (prm : CPar C) (π : Sched) :
    Sim h (Mem.AddNew prm ev x0 x1 π) ((h.viewEv ev).AddNew prm (h.view x0) (h.view x1) π)
      (ResEv ev h) := by
  unfold Mem.AddNew Ev.AddNew
  refine Sim.bind (newCiphertextBinary_sim (x0 := x0) (x1 := x1) (π.sub 0)) ?_
  intro h1 y out n
  have w1 := EvFr.ofFr ok n.fr
  have e0 : h1.view x0 = h.view x0 := s0.view w1 (by simp) (by simp)
  have e1 : h1.view x1 = h.view x1 := s1.view w1 (by simp) (by simp)
  have ee : h1.viewEv ev = h.viewEv ev := n.viewEv ok
  have := evaluateInPlace_sim w1.ok (s0.step w1) (s1.step w1) (n.sep ok) n.own
    (by rw [s0.cct_eq w1]; exact n.disj s0.valid) (by rw [s1.cct_eq w1]; exact n.disj s1.valid)
    (s0.lt.trans_le n.fresh).ne' (s1.lt.trans_le n.fresh).ne' prm RPoly.addLvl (π.sub 1)
  rw [e0, e1, ee, n.view] at this
  have fin := Sim.bind this (k := fun _ => (pure (ev, y) : HM C (HEv C × ℕ))) (k' := fun r => .ok r)
    (R := ResEv ev h) fun h2 _ r ⟨a, b, w⟩ => Sim.pure ⟨rfl, a, n.res ok (by simp) w b⟩
  rwa [show (fun r => (.ok r : Go (Ev C × CCt C))) = pure from rfl, bind_pure] at fin

/-- `sub` on pointers. -/
theorem sub_sim {ev : HEv C} (ok : PoolOk h ev.toPools) {c0 c1 y : ℕ}
    (s0 : Sep h ev.toPools c0) (s1 : Sep h ev.toPools c1) (sy : Sep h ev.toPools y)
    (ho : h.Own (h.cct y).1) (d0 : Disjoint (h.polys (h.cct c0).1) (h.polys (h.cct y).1))
    (d1 : Disjoint (h.polys (h.cct c1).1) (h.polys (h.cct y).1)) (n0 : y ≠ c0) (n1 : y ≠ c1)
    (prm : CPar C) (π : Sched) :
    Sim h (Mem.sub prm ev c0 c1 y π)
      ((h.viewEv ev).sub prm (h.view c0) (h.view c1) (h.view y) π)
      fun h' _ r => h'.viewEv ev = r.1 ∧ h'.view y = r.2 ∧
        EvFr ev.toPools ∅ (h.polys (h.cct y).1) h h' := by
  unfold Mem.sub Ev.sub
  refine Sim.bind (evaluateInPlace_sim ok s0 s1 sy ho d0 d1 n0 n1 prm RPoly.subLvl (π.sub 0)) ?_
  rintro h1 _ ⟨e, out⟩ ⟨he, hv, w1⟩
  dsimp only at he hv ⊢
  refine Sim.ctOf_bind (Sim.ctOf_bind (Sim.ctOf_bind ?_))
  rw [s0.cct_eq w1, s1.cct_eq w1]
  have v0 : h1.viewCt (h.cct c0).1 = (h.view c0).ct := s0.viewCt w1 d0
  have v1 : h1.viewCt (h.cct c1).1 = (h.view c1).ct := s1.viewCt w1 d1
  have vy : h1.viewCt (h1.cct y).1 = out.ct := by rw [← hv]; rfl
  refine Sim.level_bind v0 fun l0 _ => Sim.level_bind v1 fun l1 _ => Sim.level_bind vy fun lo _ => ?_
  refine Sim.keysOf_bind ?_
  rw [show (h1.ct (h.cct c0).1).keys = (h.view c0).ct.value.keys by rw [← v0, Heap.viewCt_keys]]
  refine Sim.lift_bind fun i0 _ => Sim.keysOf_bind ?_
  rw [show (h1.ct (h1.cct y).1).keys = out.ct.value.keys by rw [← vy, Heap.viewCt_keys]]
  refine Sim.lift_bind fun oi _ => ?_
  have ey := sy.cct_eq w1
  have own1 : h1.Own (h1.cct y).1 := by
    rw [ey]; exact w1.fr.own sy.valid (by simpa using sy.ne) ho
  have hu : Upd (h1.cct y).1 h1 h1 out.ct := ⟨vy, Wr.refl _ _ _⟩
  have loop := Sim.forEach (R := RelU (h1.cct y).1 h1) (s := ()) (π.f 3 (GoMap.keys oi))
    (body := Mem.negStep (min (min l0 l1) lo) i0 (h1.cct y).1)
    (body' := MK.negStep (min (min l0 l1) lo) i0)
    (by
      intro id _ h5 _ c hu
      unfold Mem.negStep MK.negStep
      split
      · refine Sim.load_bind hu.1 fun o ho => ?_
        exact Sim.store_upd_end hu own1 ho fun h' hu' => hu'
      · exact Sim.pure hu) hu
  have fin := Sim.bind loop (k := fun _ => (pure () : HM C Unit)) (k' := fun o =>
    (.ok (e, (⟨o, out.scale⟩ : CCt C)) : Go (Ev C × CCt C))) (R := fun h' _ r => h'.viewEv ev = r.1 ∧
      h'.view y = r.2 ∧ EvFr ev.toPools ∅ (h.polys (h.cct y).1) h h') (by
    rintro h5 _ res hu5
    have hpp : h1.polys (h1.cct y).1 = h.polys (h.cct y).1 := by
      rw [ey]; exact w1.fr.polys sy.valid (by simpa using sy.ne)
    have w5 : EvFr ev.toPools ∅ (h1.polys (h1.cct y).1) h1 h5 := EvFr.ofWr w1.ok hu5.2
    have q := sy.step w1
    refine Sim.pure ⟨?_, ?_, w1.trans w5 (by simp) (fun a _ h => by rwa [hpp] at h)⟩
    · rw [← he]
      unfold Heap.viewEv
      rw [hu5.2.viewCt w1.ok.valid.wf q.disj.symm, hu5.2.poly _ q.polyQ]
    · rw [← hv] 
      unfold Heap.view
      rw [hu5.2.cct y (by simp), hu5.1])
  simpa using fin

theorem SubNew_sim {ev : HEv C} (ok : PoolOk h ev.toPools) {x0 x1 : ℕ} (s0 : Sep h ev.toPools x0)
    (s1 : Sep h ev.toPools x1) (prm : CPar C) (π : Sched) :
    Sim h (Mem.SubNew prm ev x0 x1 π) ((h.viewEv ev).SubNew prm (h.view x0) (h.view x1) π)
      (ResEv ev h) := by
  unfold Mem.SubNew Ev.SubNew
  refine Sim.bind (newCiphertextBinary_sim (x0 := x0) (x1 := x1) (π.sub 0)) ?_
  intro h1 y out n
  have w1 := EvFr.ofFr ok n.fr
  have e0 : h1.view x0 = h.view x0 := s0.view w1 (by simp) (by simp)
  have e1 : h1.view x1 = h.view x1 := s1.view w1 (by simp) (by simp)
  have ee : h1.viewEv ev = h.viewEv ev := n.viewEv ok
  have := sub_sim w1.ok (s0.step w1) (s1.step w1) (n.sep ok) n.own
    (by rw [s0.cct_eq w1]; exact n.disj s0.valid) (by rw [s1.cct_eq w1]; exact n.disj s1.valid)
    (s0.lt.trans_le n.fresh).ne' (s1.lt.trans_le n.fresh).ne' prm (π.sub 1)
  rw [e0, e1, ee, n.view] at this
  have fin := Sim.bind this (k := fun _ => (pure (ev, y) : HM C (HEv C × ℕ))) (k' := fun r => .ok r)
    (R := ResEv ev h) fun h2 _ r ⟨a, b, w⟩ => Sim.pure ⟨rfl, a, n.res ok (by simp) w b⟩
  rwa [show (fun r => (.ok r : Go (Ev C × CCt C))) = pure from rfl, bind_pure] at fin

/-! ## Levels and rescaling -/

theorem dropLevelNew_sim {x : ℕ} (hs : Sep h P x) (ok : PoolOk h P) (n : ℕ) (π : Sched) :
    Sim h (Mem.dropLevelNew x n π) (MK.DropLevelNew (h.view x) n π)
      fun h' y r => NewRes P h h' y r := by
  unfold Mem.dropLevelNew MK.DropLevelNew
  refine Sim.ctOf_bind (Sim.keysOf_bind ?_)
  rw [show (h.ct (h.cct x).1).keys = (h.view x).ct.value.keys from (h.viewCt_keys _).symm]
  refine Sim.bind (copyNewC_sim hs.valid hs.lt _) ?_
  intro h1 y c nw
  refine Sim.ctOf_bind (Sim.keysOf_bind ?_)
  have vy : h1.viewCt (h1.cct y).1 = c.ct := by rw [← nw.view]; rfl
  rw [show (h1.ct (h1.cct y).1).keys = c.ct.value.keys by rw [← vy, Heap.viewCt_keys]]
  refine Sim.bind (dropLevel_sim nw.own (h := h1) ⟨vy, Wr.refl _ _ _⟩ _ _) ?_
  intro h2 _ out hu
  have w2 : EvFr P ∅ (h1.polys (h1.cct y).1) h1 h2 := EvFr.ofWr (EvFr.ofFr ok nw.fr).ok hu.2
  refine Sim.pure (nw.res ok (by simp) w2 ?_)
  rw [← nw.view]
  unfold Heap.view
  rw [hu.2.cct y (by simp), hu.1]

/-- Since `h0` only `polyQPool` and components of `b` have been written. -/
def UpdQ (pq b : ℕ) (h0 h : Heap C) (s : RQ C × Ct C) : Prop :=
  h.poly pq = s.1 ∧ h.viewCt b = s.2 ∧ Wr ∅ (h0.polys b ∪ {pq}) h0 h

/-- `Rescale` on pointers: in place, or into a ciphertext that shares nothing with the input. -/
theorem Rescale_sim {ev : HEv C} (ok : PoolOk h ev.toPools) {x y : ℕ} (sx : Sep h ev.toPools x)
    (sy : Sep h ev.toPools y) (ho : h.Own (h.cct y).1)
    (hd : x ≠ y → Disjoint (h.polys (h.cct x).1) (h.polys (h.cct y).1))
    (prm : CPar C) (minScale : ℚ) (π : Sched) :
    Sim h (Mem.Rescale prm ev x minScale y π)
      ((h.viewEv ev).Rescale prm (h.view x) minScale (h.view y) (decide (x = y)) π)
      fun h' t r => t = r.1 ∧ h'.viewEv ev = r.2.1 ∧ h'.view y = r.2.2 ∧
        EvFr ev.toPools {y} (h.polys (h.cct y).1) h h' := by
  unfold Mem.Rescale Ev.Rescale
  refine Sim.ctOf_bind (Sim.ctOf_bind (Sim.scaleOf_bind ?_))
  have rfl' : EvFr ev.toPools {y} (h.polys (h.cct y).1) h h := EvFr.refl ok _ _
  by_cases h1 : minScale ≤ 0
  · rw [if_pos h1, if_pos h1]; exact Sim.pure ⟨rfl, rfl, rfl, rfl'⟩
  rw [if_neg h1, if_neg h1]
  by_cases h2 : (h.cct x).2 = 0
  · rw [if_pos h2, if_pos (show (h.view x).scale = 0 from h2)]
    exact Sim.pure ⟨rfl, rfl, rfl, rfl'⟩
  rw [if_neg h2, if_neg (show ¬ (h.view x).scale = 0 from h2)]
  refine Sim.level_bind (a := (h.cct x).1) rfl fun l _ => ?_
  by_cases h3 : l = 0
  · rw [if_pos h3, if_pos h3]; exact Sim.pure ⟨rfl, rfl, rfl, rfl'⟩
  rw [if_neg h3, if_neg h3]
  refine Sim.lift_bind ?_
  rintro ⟨scale, nb⟩ _
  dsimp only
  refine Sim.setScale_bind ?_
  set h1 : Heap C := { h with cct := Function.update h.cct y ((h.cct y).1, scale) } with hh1
  have wr1 : Wr {y} ∅ h h1 := by
    refine ⟨rfl, rfl, fun a ha => Function.update_of_ne (by simpa using ha) _ _, fun a => ?_,
      fun _ _ => rfl⟩
    by_cases ha : a = y
    · subst ha; simp [hh1]
    · simp [hh1, Function.update_of_ne ha]
  have w1 : EvFr ev.toPools {y} ∅ h h1 := EvFr.ofWr ok wr1
  have cy : h1.cct y = ((h.cct y).1, scale) := Function.update_self _ _ _
  by_cases h4 : 0 < nb
  · rw [if_pos h4, if_pos h4]
    refine Sim.keysOf_bind ?_
    rw [show (h1.ct (h.cct y).1).keys = (h.view y).ct.value.keys from (h.viewCt_keys _).symm]
    have loop := Sim.forEach (R := fun h' (_ : Unit) s => UpdQ ev.polyQ (h.cct y).1 h1 h' s) (s := ())
      (t := ((h.viewEv ev).polyQ, (h.view y).ct)) (h := h1) (π.f 0 (h.view y).ct.value.keys)
      (body := Mem.rescaleStep l nb ev.polyQ (h.cct x).1 (h.cct y).1)
      (body' := MK.rescaleStep l nb (decide (x = y)) (h.view x).ct)
      (by
        rintro id _ h5 _ ⟨pool, out⟩ ⟨hq, hv, hw⟩
        unfold Mem.rescaleStep MK.rescaleStep
        dsimp only at hq hv ⊢
        have va : h5.viewCt (h.cct x).1 = (if decide (x = y) = true then out else (h.view x).ct) := by
          by_cases hxy : x = y
          · subst hxy; simpa using hv
          · simp only [hxy, decide_false, Bool.false_eq_true, if_false]
            refine (hw.viewCt (a := (h.cct x).1) sx.valid.wf ?_).trans rfl
            rw [Set.disjoint_union_right]
            exact ⟨hd hxy, Set.disjoint_singleton_right.mpr sx.polyQ⟩
        refine Sim.load_bind va fun p0 _ => Sim.load_bind hv fun p1 hp1 => Sim.readPoly_bind ?_
        refine Sim.writePoly_bind ?_
        rw [hq]
        set h6 : Heap C := { h5 with poly := Function.update h5.poly ev.polyQ _ } with hh6
        have wr6 : Wr ∅ {ev.polyQ} h5 h6 := ⟨rfl, rfl, fun _ _ => rfl, fun _ => rfl,
          fun a ha => Function.update_of_ne (by simpa using ha) _ _⟩
        have p5 : h5.polys (h.cct y).1 = h.polys (h.cct y).1 := hw.polys _
        have wf5 : (h5.ct (h.cct y).1).WF := by rw [hw.ct]; exact sy.valid.wf
        have v6 : h6.viewCt (h.cct y).1 = out := by
          rw [← hv]
          exact wr6.viewCt wf5 (by rw [p5]; exact Set.disjoint_singleton_right.mpr sy.polyQ)
        have o6 : h6.Own (h.cct y).1 := wr6.own (hw.own ho)
        refine Sim.store_end v6 o6 hp1 fun h7 v7 w7 => ⟨?_, v7, ?_⟩
        · rw [w7.poly _ (by rw [wr6.polys, p5]; exact sy.polyQ)]
          exact Function.update_self _ _ _
        · refine hw.trans (Wr.trans (wr6.mono subset_rfl Set.subset_union_right)
            (w7.mono subset_rfl ?_))
          rw [wr6.polys, p5]; exact Set.subset_union_left)
      ⟨rfl, rfl, Wr.refl _ _ _⟩
    refine Sim.bind loop ?_
    rintro h5 _ ⟨pool, out⟩ ⟨hq, hv, hw⟩
    dsimp only at hq hv ⊢
    have w5 : EvFr ev.toPools ∅ (h.polys (h.cct y).1) h1 h5 := by
      refine ⟨(hw.fr).mono (by simp) subset_rfl ?_, ⟨hw.valid w1.ok.valid, hw.own w1.ok.own, ?_, ?_⟩,
        by rw [hw.polys]; exact Set.subset_union_left, fun a _ => hw.cct1 a⟩
      · exact Set.union_subset_union_right _ Set.subset_union_right
      · rw [hw.next]; exact ok.polyQ_lt
      · rw [hw.polys]; exact ok.polyQ
    refine Sim.pure ⟨rfl, ?_, ?_, ?_⟩
    · unfold Heap.viewEv
      simp only [hq]
      congr 1
      refine (hw.viewCt (a := ev.pool) ok.valid.wf ?_).trans rfl
      rw [Set.disjoint_union_right]
      exact ⟨sy.disj.symm, Set.disjoint_singleton_right.mpr ok.polyQ⟩
    · unfold Heap.view
      rw [hw.cct y (by simp), cy, hv]
    · exact (w1.mono subset_rfl (Set.empty_subset _)).trans w5 (by simp) (fun a _ h => h)
  · rw [if_neg h4, if_neg h4]
    by_cases h5 : x = y
    · rw [if_pos h5, if_pos (by simpa using h5)]
      exact Sim.pure ⟨rfl, rfl, by unfold Heap.view; rw [cy]; rfl,
        w1.mono subset_rfl (Set.empty_subset _)⟩
    · rw [if_neg h5, if_neg (by simpa using h5)]
      refine Sim.keysOf_bind ?_
      have ex : h1.view x = h.view x := by
        unfold Heap.view; rw [show h1.cct x = h.cct x from Function.update_of_ne h5 _ _]; rfl
      have qx := sx.step w1
      have cp := copyNewC_sim qx.valid qx.lt (π.f 1 (h.view x).ct.value.keys)
      rw [ex] at cp
      rw [show (h1.ct (h.cct x).1).keys = (h.view x).ct.value.keys from (h.viewCt_keys _).symm]
      refine Sim.bind cp ?_
      intro h6 _ c n
      have w6 := EvFr.ofFr w1.ok n.fr
      refine Sim.pure ⟨rfl, (n.viewEv w1.ok).trans rfl, ?_, ?_⟩
      · rw [(sy.step w1).view w6 (by simp) (by simp)]
        unfold Heap.view; rw [cy]; rfl
      · exact (w1.mono subset_rfl (Set.empty_subset _)).trans w6 (by simp) (by simp)

theorem RescaleNew_sim {ev : HEv C} (ok : PoolOk h ev.toPools) {x : ℕ} (sx : Sep h ev.toPools x)
    (prm : CPar C) (threshold : ℚ) (π : Sched) :
    Sim h (Mem.RescaleNew prm ev x threshold π)
      ((h.viewEv ev).RescaleNew prm (h.view x) threshold π)
      fun h' t r => t.1 = r.1 ∧ ResEv ev h h' t.2 r.2 := by
  unfold Mem.RescaleNew Ev.RescaleNew
  refine Sim.ctOf_bind (Sim.keysOf_bind ?_)
  rw [show (h.ct (h.cct x).1).keys = (h.view x).ct.value.keys from (h.viewCt_keys _).symm]
  refine Sim.lift_bind fun ids _ => Sim.level_bind (a := (h.cct x).1) rfl fun l _ => ?_
  refine Sim.scaleOf_bind ?_
  dsimp only
  have nw := newCCiphertext_sim h l (π.f 1 (GoMap.keys ids)) (h.cct x).2
  have := Sim.bind nw (k' := fun out => (h.viewEv ev).Rescale prm (h.view x) threshold out false
      (π.sub 2)) (k := fun y => do
      let e ← Mem.Rescale prm ev x threshold y (π.sub 2)
      return (e, ev, y)) (R := fun h' t r => t.1 = r.1 ∧ ResEv ev h h' t.2 r.2) (by
    intro h1 y c n
    have w1 := EvFr.ofFr ok n.fr
    have ne : x ≠ y := (sx.lt.trans_le n.fresh).ne
    have rs := Rescale_sim w1.ok (sx.step w1) (n.sep ok) n.own
      (fun _ => by rw [sx.cct_eq w1]; exact n.disj sx.valid) prm threshold (π.sub 2)
    rw [sx.view w1 (by simp) (by simp), n.viewEv ok, n.view, show decide (x = y) = false by
      simpa using ne] at rs
    have fin := Sim.bind rs (k := fun e => (pure (e, ev, y) : HM C (Option String × HEv C × ℕ)))
      (k' := fun r => .ok r) (R := fun h' t r => t.1 = r.1 ∧ ResEv ev h h' t.2 r.2)
      fun h2 _ r ⟨a, b, d, w⟩ => Sim.pure ⟨a, rfl, b, n.res ok (by simpa using n.fresh) w d⟩
    rwa [show (fun r => (.ok r : Go (Option String × Ev C × CCt C))) = pure from rfl,
      bind_pure] at fin)
  exact this

/-- Writing `polyQPool`. -/
theorem EvFr.ofPolyQ (ok : PoolOk h P) (v : RQ C) :
    EvFr P ∅ ∅ h { h with poly := Function.update h.poly P.polyQ v } := by
  have wr : Wr ∅ {P.polyQ} h { h with poly := Function.update h.poly P.polyQ v } :=
    ⟨rfl, rfl, fun _ _ => rfl, fun _ => rfl, fun a ha => Function.update_of_ne (by simpa using ha) _ _⟩
  refine ⟨wr.fr.mono (by simp) subset_rfl ?_, ⟨wr.valid ok.valid, wr.own ok.own, ok.polyQ_lt,
    by rw [wr.polys]; exact ok.polyQ⟩, by rw [wr.polys]; exact Set.subset_union_left, fun _ _ => rfl⟩
  exact Set.subset_union_right.trans Set.subset_union_right

theorem MulPtxtNew_sim {ev : HEv C} (ok : PoolOk h ev.toPools) {x : ℕ} (sx : Sep h ev.toPools x)
    (prm : CPar C) (pt : RQ C) (ptScale : ℚ) (π : Sched) :
    Sim h (Mem.MulPtxtNew prm ev x pt ptScale π)
      ((h.viewEv ev).MulPtxtNew prm (h.view x) pt ptScale π) (ResEv ev h) := by
  unfold Mem.MulPtxtNew Ev.MulPtxtNew Ev.mulPtxtCore
  simp only [bind_assoc]
  refine Sim.ctOf_bind (Sim.keysOf_bind ?_)
  rw [show (h.ct (h.cct x).1).keys = (h.view x).ct.value.keys from (h.viewCt_keys _).symm]
  refine Sim.lift_bind fun ids _ => Sim.level_bind (a := (h.cct x).1) rfl fun l _ => ?_
  refine Sim.scaleOf_bind ?_
  obtain ⟨pq, hpq⟩ : ∃ pq : RQ C, pq = (pt.nttLvl C.nttQ l (h.viewEv ev).polyQ).mformLvl l
    (pt.nttLvl C.nttQ l (h.viewEv ev).polyQ) := ⟨_, rfl⟩
  rw [← hpq]
  have nw := newCCiphertext_sim h l ((π.sub 0).f 1 (GoMap.keys ids)) (prm.fl.rnd ((h.cct x).2 * ptScale))
  refine Sim.bind (f := .ok (CCt.new l ((π.sub 0).f 1 (GoMap.keys ids))
    (prm.fl.rnd ((h.cct x).2 * ptScale)))) nw (k' := fun out => do
      let res ← MK.forEach ((π.sub 0).f 2 (h.view x).ct.value.keys)
        (MK.mulPtxtStep l (h.view x).ct pq) out.ct
      let (_, e, r) ← ({ h.viewEv ev with polyQ := pq } : Ev C).rescaleSelf prm ⟨res, out.scale⟩ prm.scale
          (π.sub 1)
      return (e, r)) ?_
  intro h1 y c n
  have w1 := EvFr.ofFr ok n.fr
  refine Sim.ctOf_bind (Sim.readPoly_bind (Sim.writePoly_bind (Sim.readPoly_bind
    (Sim.writePoly_bind (Sim.keysOf_bind ?_)))))
  have eq1 : h1.poly ev.polyQ = (h.viewEv ev).polyQ := n.fr.poly _ ok.polyQ_lt (by simp)
  simp only [Function.update_self, Function.update_idem, eq1, ← hpq]
  set h2 : Heap C := { h1 with poly := Function.update h1.poly ev.polyQ pq } with hh2
  have w12 : EvFr ev.toPools ∅ ∅ h1 h2 := EvFr.ofPolyQ w1.ok pq
  have w2 := w1.trans w12 (by simp) (by simp)
  have sy2 : Sep h2 ev.toPools y := (n.sep ok).step w12
  have q2 : h2.poly ev.polyQ = pq := Function.update_self _ _ _
  have o2 : h2.Own (h1.cct y).1 := n.own
  have ex2 : h2.viewCt (h.cct x).1 = (h.view x).ct := sx.viewCt w2 (by simp)
  have vy2 : h2.viewCt (h1.cct y).1 = c.ct := by
    rw [(n.sep ok).viewCt w12 (by simp), ← n.view]; rfl
  have dxy : Disjoint (h2.polys (h.cct x).1) (h2.polys (h1.cct y).1) := n.disj sx.valid
  rw [show (h1.ct (h.cct x).1).keys = (h.view x).ct.value.keys by
    rw [← ex2, Heap.viewCt_keys]]
  have ra : Rd (h1.cct y).1 h2 (h.cct x).1 := by
    refine ⟨?_, dxy⟩
    rw [show h2.ct (h.cct x).1 = h.ct (h.cct x).1 from w2.fr.ct _ sx.valid.lt (by simpa using sx.ne)]
    exact sx.valid.wf
  have loop := Sim.forEach (R := RelU (h1.cct y).1 h2) (s := ()) (t := c.ct) (h := h2)
    ((π.sub 0).f 2 (h.view x).ct.value.keys)
    (body := Mem.mulPtxtStep l ev.polyQ (h.cct x).1 (h1.cct y).1)
    (body' := MK.mulPtxtStep l (h.view x).ct pq)
    (by
      intro id _ h5 _ c hu
      unfold Mem.mulPtxtStep MK.mulPtxtStep
      refine Sim.load_bind ((hu.read ra).trans ex2) fun v _ => ?_
      refine Sim.load_bind hu.1 fun o ho => ?_
      have red : ∀ {h' : Heap C} {c' : Ct C}, Upd (h1.cct y).1 h2 h' c' → h'.poly ev.polyQ = pq :=
        fun hu' => (hu'.2.poly _ sy2.polyQ).trans q2
      dsimp only
      refine Sim.store_upd hu o2 ho fun h6 hu6 => Sim.readPoly_bind ?_
      rw [red hu6]
      have g6 : (c.value.set id (v.nttLvl C.nttQ l o)).get? id = some (v.nttLvl C.nttQ l o) := by
        rw [GoMap.get?_set, if_pos rfl]
      refine Sim.load_val hu6.1 g6 (Sim.store_upd hu6 o2 g6 fun h7 hu7 => ?_)
      have g7 : ((c.value.set id (v.nttLvl C.nttQ l o)).set id (RPoly.mulMontLvl l
          (v.nttLvl C.nttQ l o) pq (v.nttLvl C.nttQ l o))).get? id = some (RPoly.mulMontLvl l
          (v.nttLvl C.nttQ l o) pq (v.nttLvl C.nttQ l o)) := by
        rw [GoMap.get?_set, if_pos rfl]
      refine Sim.load_val hu7.1 g7 (Sim.store_upd_end hu7 o2 g7 fun h8 hu8 => ?_)
      simp only [GoMap.set_set] at hu8
      exact hu8) ⟨vy2, Wr.refl _ _ _⟩
  refine Sim.bind loop ?_
  intro h3 _ res hu3
  have w23 : EvFr ev.toPools ∅ (h2.polys (h1.cct y).1) h2 h3 := EvFr.ofWr w2.ok hu3.2
  have w3 : EvFr ev.toPools ∅ (h1.polys (h1.cct y).1) h1 h3 :=
    (w12.mono subset_rfl (Set.empty_subset _)).trans w23 (by simp) (fun a _ h => h)
  have sy3 := sy2.step w23
  have cy3 : h3.cct y = h1.cct y := hu3.2.cct y (by simp)
  have ev3 : h3.viewEv ev = { h.viewEv ev with polyQ := pq } := by
    rw [← n.viewEv ok]
    unfold Heap.viewEv
    rw [hu3.2.viewCt w2.ok.valid.wf sy2.disj.symm, hu3.2.poly _ sy2.polyQ, q2]
    congr 1
    refine viewCt_congr (h := h1) (h' := h2) rfl (fun p hp => Function.update_of_ne ?_ _ _) w1.ok.valid.wf
    rintro rfl
    exact w1.ok.polyQ hp
  have vy3 : h3.view y = ⟨res, c.scale⟩ := by
    unfold Heap.view
    rw [cy3, hu3.1, ← n.view]; rfl
  have rs := Rescale_sim w23.ok sy3 sy3 (by rw [cy3]; exact hu3.2.own o2) (fun h => absurd rfl h) prm
    prm.scale (π.sub 1)
  rw [ev3, vy3, show decide (y = y) = true by simp] at rs
  refine Sim.bind rs ?_
  rintro h4 t ⟨e, ev', r⟩ ⟨_, a, b, w⟩
  refine Sim.pure ⟨rfl, a, n.res ok (B := {y}) (by simpa using n.fresh) ?_ b⟩
  refine (w3.mono (Set.empty_subset _) subset_rfl).trans w (fun _ _ h => h) ?_
  intro p _ hp
  rw [cy3, hu3.2.polys] at hp
  exact hp

end MK
