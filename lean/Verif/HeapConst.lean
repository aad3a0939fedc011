import Verif.HeapEnc

/-!
# `MultByConst` with the same ciphertext as input and output

`MultByConst(ct, c, ct)` reads every coefficient from the ciphertext it is writing.  The value model
reads them from a copy.  Both give the same result, because every coefficient is read exactly once,
before it is overwritten.
-/

noncomputable section

namespace MK

open Mem

variable {C : Ctx}

/-- The coefficients selected by `T` still have their original value. -/
def Agree (ct c : Ct C) (T : String → ℕ → Fin C.N → Prop) : Prop :=
  ∀ u p0 p, ct.value.get? u = some p0 → c.value.get? u = some p →
    ∀ i j, T u i j → p.row i j = p0.row i j

/-- The state of the loops: the ciphertext `a`, partly overwritten. -/
def InPl (a : ℕ) (h0 : Heap C) (T : String → ℕ → Fin C.N → Prop) : Heap C → Unit → Ct C → Prop :=
  fun h _ c => Upd a h0 h c ∧ c.value.keys = (h0.viewCt a).value.keys ∧ Agree (h0.viewCt a) c T

variable {a : ℕ} {h0 : Heap C}

theorem mulHalf_inPl (ho : h0.Own a) (i : ℕ) (sel : Fin C.N → Prop) [DecidablePred sel]
    (x : ZMod (C.q i)) {u : String} (hu : u ∈ (h0.viewCt a).value.keys)
    {T : String → ℕ → Fin C.N → Prop} (hT : ∀ j, sel j → T u i j) {h : Heap C} {s : Unit} {c : Ct C}
    (hi : InPl a h0 T h s c) :
    Sim h (Mem.mulHalfStep a a i sel x u s) (MK.mulHalfStep (h0.viewCt a) i sel x u c)
      (InPl a h0 fun u' i' j => T u' i' j ∧ ¬ (u' = u ∧ i' = i ∧ sel j)) := by
  obtain ⟨up, hk, ag⟩ := hi
  obtain ⟨p0, hp0⟩ := GoMap.exists_get?_of_mem hu
  obtain ⟨p, hp⟩ := GoMap.exists_get?_of_mem (m := c.value) (k := u) (by rw [hk]; exact hu)
  unfold Mem.mulHalfStep MK.mulHalfStep
  rw [GoMap.deref_of_get? hp0, GoMap.deref_of_get? hp]
  refine Sim.load_val up.1 hp (Sim.load_val up.1 hp ?_)
  have e : (p.setRow i sel fun j => RPoly.mred (p.row i j) x) =
      p.setRow i sel fun j => RPoly.mred (p0.row i j) x := by
    unfold RPoly.setRow
    congr 1
    congr 1
    funext j
    by_cases hj : sel j
    · rw [if_pos hj, if_pos hj]
      dsimp only
      rw [ag u p0 p hp0 hp i j (hT j hj)]
    · rw [if_neg hj, if_neg hj]
  rw [e]
  refine Sim.store_upd_end up ho hp fun h' up' => ⟨up', ?_, ?_⟩
  · show (c.value.set u _).keys = _
    rw [GoMap.keys_set, if_pos (by rw [hk]; exact hu), hk]
  · intro u' q0 q hq0 hq i' j ht
    simp only [GoMap.get?_set] at hq
    by_cases h1 : u' = u
    · subst h1
      rw [if_pos rfl] at hq
      obtain rfl : q0 = p0 := Option.some.inj (hq0.symm.trans hp0)
      rw [← Option.some.inj hq]
      unfold RPoly.setRow
      by_cases h2 : i' = i
      · subst h2
        simp only [Function.update_self]
        have hj : ¬ sel j := fun hj => ht.2 ⟨rfl, rfl, hj⟩
        rw [if_neg hj]
        exact ag _ _ _ hp0 hp _ _ ht.1
      · simp only [Function.update_of_ne h2]
        exact ag _ _ _ hp0 hp _ _ ht.1
    · rw [if_neg h1] at hq
      exact ag _ _ _ hq0 hq _ _ ht.1

theorem mulPass_inPl (ho : h0.Own a) (i : ℕ) (sel : Fin C.N → Prop) [DecidablePred sel]
    (x : ZMod (C.q i)) {T : String → ℕ → Fin C.N → Prop} (o : List String) (hn : o.Nodup)
    (hm : ∀ u ∈ o, u ∈ (h0.viewCt a).value.keys) {h : Heap C} {c : Ct C}
    (hi : InPl a h0 (fun u i' j => T u i' j ∨ (u ∈ o ∧ i' = i ∧ sel j)) h () c)
    (hT : ∀ u j, sel j → ¬ T u i j) :
    Sim h (Mem.forEach o (Mem.mulHalfStep a a i sel x) ())
      (MK.forEach o (MK.mulHalfStep (h0.viewCt a) i sel x) c) (InPl a h0 T) := by
  induction o generalizing h c with
  | nil => exact ⟨hi.1, hi.2.1, fun u p0 p h1 h2 i' j ht => hi.2.2 u p0 p h1 h2 i' j (Or.inl ht)⟩
  | cons u o ih =>
    refine Sim.bind (mulHalf_inPl ho i sel x (hm u (by simp))
      (fun j hj => Or.inr ⟨by simp, rfl, hj⟩) hi) ?_
    intro h1 _ c1 hi1
    refine ih hn.of_cons (fun v hv => hm v (by simp [hv])) ⟨hi1.1, hi1.2.1, ?_⟩
    intro v p0 p e1 e2 i' j ht
    refine hi1.2.2 v p0 p e1 e2 i' j ?_
    rcases ht with ht | ⟨hv, rfl, hj⟩
    · exact ⟨Or.inl ht, fun ⟨_, e, hj⟩ => hT v j hj (e ▸ ht)⟩
    · exact ⟨Or.inr ⟨by simp [hv], rfl, hj⟩, fun ⟨e, _⟩ => (List.nodup_cons.mp hn).1 (e ▸ hv)⟩

/-- The loops of `MultByConst`, reading and writing one ciphertext. -/
theorem mulLoops_inPl (ho : h0.Own a) (n : ℕ) (prm : CPar C) (re im sc : ℚ) (π : Sched) :
    Sim h0 (Mem.forN n (fun i (_ : Unit) => do
        let (c1, c2) := prm.scaledConsts re im sc i
        let k ← keysOf a
        Mem.forEach (π.f (2 * i) k) (Mem.mulHalfStep a a i (fun j => j.val < C.N / 2) c1) ()
        let k ← keysOf a
        Mem.forEach (π.f (2 * i + 1) k) (Mem.mulHalfStep a a i (fun j => ¬ j.val < C.N / 2) c2) ()) ())
      (MK.forN n (fun i out => do
        let (c1, c2) := prm.scaledConsts re im sc i
        let out ← MK.forEach (π.f (2 * i) (h0.viewCt a).value.keys)
          (MK.mulHalfStep (h0.viewCt a) i (fun j => j.val < C.N / 2) c1) out
        MK.forEach (π.f (2 * i + 1) (h0.viewCt a).value.keys)
          (MK.mulHalfStep (h0.viewCt a) i (fun j => ¬ j.val < C.N / 2) c2) out) (h0.viewCt a))
      (InPl a h0 fun _ i' _ => n ≤ i') := by
  have hnd : ∀ k, (π.f k (h0.viewCt a).value.keys).Nodup := fun k => by
    rw [(π.perm k _).nodup_iff, Heap.viewCt_keys]; exact ho.1
  have hm : ∀ k u, u ∈ π.f k (h0.viewCt a).value.keys ↔ u ∈ (h0.viewCt a).value.keys := fun k u =>
    (π.perm k _).mem_iff
  induction n with
  | zero =>
    refine ⟨Upd.refl _ _, rfl, fun u p0 p h1 h2 i j _ => ?_⟩
    rw [Option.some.inj (h1.symm.trans h2)]
  | succ n ih =>
    refine Sim.bind ih ?_
    intro h1 _ c1 hi
    refine Sim.keysOf_bind ?_
    have hk1 : (h1.ct a).keys = (h0.viewCt a).value.keys := by
      rw [Heap.viewCt_keys, hi.1.2.ct]
    rw [hk1]
    have p1 := mulPass_inPl ho n (fun j => j.val < C.N / 2) (prm.scaledConsts re im sc n).1
      (T := fun u i' j => u ∈ (h0.viewCt a).value.keys ∧ (n < i' ∨ (i' = n ∧ ¬ j.val < C.N / 2)))
      _ (hnd (2 * n)) (fun u hu => (hm _ u).mp hu) (h := h1) (c := c1)
      ⟨hi.1, hi.2.1, fun u p0 p e1 e2 i' j ht => hi.2.2 u p0 p e1 e2 i' j (by
        rcases ht with ⟨_, ht | ht⟩ | ht
        · exact ht.le
        · exact ht.1.ge
        · exact ht.2.1.ge)⟩ (by
        rintro u j hj ⟨_, ht | ht⟩
        · exact lt_irrefl _ ht
        · exact ht.2 hj)
    refine Sim.bind p1 ?_
    intro h2 _ c2 hi2
    refine Sim.keysOf_bind ?_
    have hk2 : (h2.ct a).keys = (h0.viewCt a).value.keys := by
      rw [Heap.viewCt_keys, hi2.1.2.ct]
    rw [hk2]
    exact mulPass_inPl ho n (fun j => ¬ j.val < C.N / 2) (prm.scaledConsts re im sc n).2
      (T := fun _ i' _ => n + 1 ≤ i') _
      (hnd (2 * n + 1)) (fun u hu => (hm _ u).mp hu)
      ⟨hi2.1, hi2.2.1, fun u p0 p e1 e2 i' j ht =>
        hi2.2.2 u p0 p e1 e2 i' j ⟨GoMap.mem_keys_of_get? e1, by
          rcases ht with ht | ht
          · exact Or.inl ht
          · exact Or.inr ht.2⟩⟩ (fun u j _ ht => by omega)

/-- `MultByConst(x, c, x)` on pointers. -/
theorem multByConst_inPlace {h : Heap C} {x : ℕ} (ho : h.Own (h.cct x).1) (prm : CPar C) (c : Const)
    (π : Sched) :
    Sim h (Mem.multByConst prm x c x π) (prm.MultByConst (h.view x) c (h.view x) π)
      fun h' _ r => h'.view x = r ∧ Wr {x} (h.polys (h.cct x).1) h h' := by
  unfold Mem.multByConst CPar.MultByConst
  refine Sim.ctOf_bind (Sim.ctOf_bind ?_)
  refine Sim.level_bind (a := (h.cct x).1) rfl fun l0 _ => ?_
  refine Sim.level_bind (a := (h.cct x).1) rfl fun l1 _ => ?_
  dsimp only
  rcases prm.getConstAndScale (min l0 l1) c with ⟨re, im, sc⟩
  dsimp only
  refine Sim.bind (mulLoops_inPl ho (min l0 l1 + 1) prm re im sc π) ?_
  rintro h' _ c' ⟨hu, -, -⟩
  have e : ∀ z, h'.cct z = h.cct z := fun z => hu.2.cct z (by simp)
  refine Sim.scaleOf_bind (Sim.setScale_end ⟨?_, ?_⟩)
  · simp only [Heap.view, Function.update_self, e]
    congr 1
    exact hu.1
  · refine ⟨hu.2.next, hu.2.ct, fun z hz => ?_, fun z => ?_, hu.2.poly⟩
    · exact (Function.update_of_ne (by simpa using hz) _ _).trans (e z)
    · by_cases hz : z = x
      · subst hz; simp only [Function.update_self, e]
      · simp only [Function.update_of_ne hz, e]

end MK
