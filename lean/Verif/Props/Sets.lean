import Verif.IDSet
import Verif.Keys
import Mathlib.Data.List.Infix

/-!
# C01 – C06: identifier sets and key sets under arbitrary call histories

The specifications speak only about the list of calls made so far.
-/

namespace MK

/-! ## C01 -/

/-- A mutating call on an `IDSet`. -/
inductive SetCall where
  | add (v : String)
  | remove (v : String)
  deriving DecidableEq

/-- Run a history of calls. -/
def runSet (s : IDSet) : List SetCall → Go IDSet
  | [] => .ok s
  | .add v :: h => do
    let s ← s.Add v
    runSet s h
  | .remove v :: h => runSet (s.Remove v) h

/-- Specification: `v` is in the set after the history: some `add v` is not followed by a
`remove v`. -/
def SetCall.Alive (h : List SetCall) (v : String) : Prop :=
  ∃ pre post, h = pre ++ SetCall.add v :: post ∧ SetCall.remove v ∉ post

theorem alive_cons_add (h : List SetCall) (a v : String) :
    SetCall.Alive (SetCall.add a :: h) v ↔
      SetCall.Alive h v ∨ (v = a ∧ SetCall.remove v ∉ h) := by
  constructor
  · rintro ⟨pre, post, he, hp⟩
    rcases pre with _ | ⟨p, pre⟩
    · simp only [List.nil_append, List.cons.injEq, SetCall.add.injEq] at he
      exact Or.inr ⟨he.1.symm, he.2 ▸ hp⟩
    · simp only [List.cons_append, List.cons.injEq] at he
      exact Or.inl ⟨pre, post, he.2, hp⟩
  · rintro (⟨pre, post, he, hp⟩ | ⟨rfl, hp⟩)
    · exact ⟨SetCall.add a :: pre, post, by simp [he], hp⟩
    · exact ⟨[], h, rfl, hp⟩

theorem alive_cons_remove (h : List SetCall) (a v : String) :
    SetCall.Alive (SetCall.remove a :: h) v ↔ SetCall.Alive h v := by
  constructor
  · rintro ⟨pre, post, he, hp⟩
    rcases pre with _ | ⟨p, pre⟩
    · simp at he
    · simp only [List.cons_append, List.cons.injEq] at he
      exact ⟨pre, post, he.2, hp⟩
  · rintro ⟨pre, post, he, hp⟩
    exact ⟨SetCall.remove a :: pre, post, by simp [he], hp⟩

theorem runSet_spec (h : List SetCall) (s : IDSet) (hw : GoMap.WF s)
    (h0 : SetCall.add "0" ∉ h) :
    ∃ r, runSet s h = .ok r ∧ GoMap.WF r ∧
      ∀ v, v ∈ GoMap.keys r ↔
        SetCall.Alive h v ∨ (v ∈ GoMap.keys s ∧ SetCall.remove v ∉ h) := by
  induction h generalizing s with
  | nil =>
    refine ⟨s, rfl, hw, fun v => ?_⟩
    simp [SetCall.Alive]
  | cons c h ih =>
    have h0' : SetCall.add "0" ∉ h := fun hh => h0 (List.mem_cons_of_mem _ hh)
    cases c with
    | add a =>
      have ha : a ≠ "0" := fun hh => h0 (by simp [hh])
      obtain ⟨r, hr, hrw, hm⟩ := ih (GoMap.set s a ()) (hw.set a ()) h0'
      refine ⟨r, ?_, hrw, fun v => ?_⟩
      · simp only [runSet, IDSet.Add, if_neg ha]; exact hr
      · rw [hm, alive_cons_add, GoMap.mem_keys_set]
        simp only [List.mem_cons, reduceCtorEq, false_or]
        tauto
    | remove a =>
      obtain ⟨r, hr, hrw, hm⟩ := ih (GoMap.del s a) (hw.del a) h0'
      refine ⟨r, hr, hrw, fun v => ?_⟩
      rw [hm, alive_cons_remove, GoMap.mem_keys_del]
      simp only [List.mem_cons, SetCall.remove.injEq, not_or]
      tauto

/-- **C01.** After every history of `Add`/`Remove` on a fresh set that never adds `"0"`, no
call panicked, `Has v` holds iff some `Add v` was not followed by a `Remove v`, and `Size`
counts exactly those identifiers. -/
theorem C01_idset_history (h : List SetCall) (h0 : SetCall.add "0" ∉ h) :
    ∃ s, runSet IDSet.new h = .ok s ∧
      (∀ v, s.Has v = true ↔ SetCall.Alive h v) ∧
      ∀ l : List String, l.Nodup → (∀ v, v ∈ l ↔ SetCall.Alive h v) → s.Size = l.length := by
  obtain ⟨r, hr, hw, hm⟩ := runSet_spec h IDSet.new GoMap.empty_wf h0
  have hm' : ∀ v, v ∈ GoMap.keys r ↔ SetCall.Alive h v := by
    intro v; rw [hm]; simp [IDSet.new]
  refine ⟨r, hr, fun v => ?_, fun l hl hv => ?_⟩
  · rw [← hm']; exact GoMap.has_iff _ _
  · have : (GoMap.keys r).Perm l :=
      (List.perm_ext_iff_of_nodup hw hl).mpr fun v => by rw [hm', hv]
    rw [IDSet.Size, GoMap.size_eq, this.length_eq]

/-- A history with re-insertion and removal: `a` was removed and re-added, `b` removed. -/
example : ∃ s, runSet IDSet.new
    [.add "a", .add "b", .remove "a", .add "a", .remove "b"] = .ok s ∧
    s.Has "a" = true ∧ s.Has "b" = false ∧ s.Size = 1 := by
  refine ⟨_, rfl, ?_, ?_, ?_⟩ <;> decide

/-! ## C02 -/

/-- **C02.** `Add("0")` panics on every set. -/
theorem C02_add_zero_panics (s : IDSet) : Go.panics (s.Add "0") := ⟨_, rfl⟩

/-- Every `IDSet` value a program can obtain through the exported operations of idset.go
(whatever the iteration orders). -/
inductive IDSet.Reachable : IDSet → Prop
  | new : Reachable IDSet.new
  | add {s v r} : Reachable s → s.Add v = .ok r → Reachable r
  | remove {s} (v) : Reachable s → Reachable (s.Remove v)
  | copy {s o r} : Reachable s → GoMap.IsOrder s o → s.CopyNew o = .ok r → Reachable r
  | union {s t o1 o2 r} : Reachable s → Reachable t → GoMap.IsOrder s o1 →
      GoMap.IsOrder t o2 → s.Union t o1 o2 = .ok r → Reachable r
  | inter {s t o2 r} : Reachable s → Reachable t → GoMap.IsOrder t o2 →
      s.Intersection t o2 = .ok r → Reachable r

theorem IDSet.union_spec {s t : IDSet} {o1 o2 : List String}
    (hs0 : "0" ∉ GoMap.keys s) (ht0 : "0" ∉ GoMap.keys t)
    (ho1 : GoMap.IsOrder s o1) (ho2 : GoMap.IsOrder t o2) :
    ∃ r, s.Union t o1 o2 = .ok r ∧ GoMap.WF r ∧
      ∀ v, v ∈ GoMap.keys r ↔ v ∈ GoMap.keys s ∨ v ∈ GoMap.keys t := by
  obtain ⟨r1, h1, w1, m1⟩ := IDSet.addAll_spec o1 (by rwa [ho1.mem]) IDSet.new GoMap.empty_wf
  obtain ⟨r2, h2, w2, m2⟩ := IDSet.addAll_spec o2 (by rwa [ho2.mem]) r1 w1
  refine ⟨r2, ?_, w2, fun v => ?_⟩
  · simp only [IDSet.Union, h1]; exact h2
  · rw [m2, m1, ho1.mem, ho2.mem]; simp [IDSet.new]

theorem IDSet.Reachable.inv {s : IDSet} (h : s.Reachable) :
    GoMap.WF s ∧ "0" ∉ GoMap.keys s := by
  induction h with
  | new => exact ⟨GoMap.empty_wf, by simp [IDSet.new]⟩
  | @add s v r _ hr ih =>
    unfold IDSet.Add at hr
    split at hr
    · cases hr
    · cases hr
      refine ⟨ih.1.set _ _, ?_⟩
      rw [GoMap.mem_keys_set]
      rintro (h | h)
      · exact absurd h.symm ‹_›
      · exact ih.2 h
  | remove v _ ih => exact ⟨ih.1.del _, fun h => ih.2 (GoMap.mem_keys_del.mp h).1⟩
  | @copy s o r _ ho hr ih =>
    obtain ⟨r', h', w, m⟩ := IDSet.addAll_spec o (by rw [ho.mem]; exact ih.2) IDSet.new
      GoMap.empty_wf
    have : r' = r := by
      have := h'.symm.trans hr; injection this
    subst this
    exact ⟨w, by rw [m, ho.mem]; simpa [IDSet.new] using ih.2⟩
  | @union s t o1 o2 r _ _ ho1 ho2 hr ih1 ih2 =>
    obtain ⟨r', h', w, m⟩ := IDSet.union_spec ih1.2 ih2.2 ho1 ho2
    have : r' = r := by have := h'.symm.trans hr; injection this
    subst this
    exact ⟨w, by rw [m]; rintro (h | h); exacts [ih1.2 h, ih2.2 h]⟩
  | @inter s t o2 r _ _ ho2 hr ih1 ih2 =>
    obtain ⟨r', h', w, m⟩ := IDSet.interLoop_spec s ih1.2 o2 IDSet.new GoMap.empty_wf
    have : r' = r := by have := h'.symm.trans hr; injection this
    subst this
    exact ⟨w, by rw [m]; rintro (h | h); exacts [by simp [IDSet.new] at h, ih1.2 h.2]⟩

/-- **C02.** No set obtained through any history of the exported operations contains `"0"`. -/
theorem C02_zero_never_member {s : IDSet} (h : s.Reachable) : s.Has "0" = false := by
  have := h.inv.2
  rw [← GoMap.has_iff] at this
  unfold IDSet.Has
  simpa using this

example : ∃ s : IDSet, s.Reachable ∧ s.Has "alice" = true ∧ s.Has "0" = false :=
  ⟨_, .add .new (show IDSet.new.Add "alice" = _ from rfl), by decide, by decide⟩

/-! ## C03 -/

/-- **C03 (union).** For every iteration order, `Union` succeeds and contains exactly the
identifiers of either operand; its size is that of the set union. -/
theorem C03_union {s t : IDSet} (hs : s.Reachable) (ht : t.Reachable)
    {o1 o2 : List String} (ho1 : GoMap.IsOrder s o1) (ho2 : GoMap.IsOrder t o2) :
    ∃ r, s.Union t o1 o2 = .ok r ∧ (∀ v, r.Has v = (s.Has v || t.Has v)) ∧
      r.Size = (GoMap.keys s ∪ GoMap.keys t).length := by
  obtain ⟨r, hr, w, m⟩ := IDSet.union_spec hs.inv.2 ht.inv.2 ho1 ho2
  refine ⟨r, hr, fun v => ?_, ?_⟩
  · have := m v
    simp only [← GoMap.has_iff] at this
    rw [Bool.eq_iff_iff, Bool.or_eq_true]; exact this
  · rw [IDSet.Size, GoMap.size_eq]
    refine List.Perm.length_eq ((List.perm_ext_iff_of_nodup w ?_).mpr fun v => ?_)
    · exact List.Nodup.union _ ht.inv.1
    · rw [m, List.mem_union_iff]

/-- **C03 (intersection).** -/
theorem C03_intersection {s t : IDSet} (hs : s.Reachable)
    {o2 : List String} (ho2 : GoMap.IsOrder t o2) :
    ∃ r, s.Intersection t o2 = .ok r ∧ (∀ v, r.Has v = (s.Has v && t.Has v)) ∧
      r.Size = (GoMap.keys s ∩ GoMap.keys t).length := by
  obtain ⟨r, hr, w, m⟩ := IDSet.interLoop_spec s hs.inv.2 o2 IDSet.new GoMap.empty_wf
  have m' : ∀ v, v ∈ GoMap.keys r ↔ v ∈ GoMap.keys s ∧ v ∈ GoMap.keys t := by
    intro v; rw [m, ho2.mem]; simp [IDSet.new, and_comm]
  refine ⟨r, hr, fun v => ?_, ?_⟩
  · have := m' v
    simp only [← GoMap.has_iff] at this
    rw [Bool.eq_iff_iff, Bool.and_eq_true]; exact this
  · rw [IDSet.Size, GoMap.size_eq]
    refine List.Perm.length_eq ((List.perm_ext_iff_of_nodup w ?_).mpr fun v => ?_)
    · exact List.Nodup.inter _ hs.inv.1
    · rw [m', List.mem_inter_iff]

/-- **C03 (copy).** -/
theorem C03_copy {s : IDSet} (hs : s.Reachable) {o : List String} (ho : GoMap.IsOrder s o) :
    ∃ r, s.CopyNew o = .ok r ∧ (∀ v, r.Has v = s.Has v) ∧ r.Size = s.Size := by
  obtain ⟨r, hr, w, m⟩ := IDSet.addAll_spec o (by rw [ho.mem]; exact hs.inv.2) IDSet.new
    GoMap.empty_wf
  have m' : ∀ v, v ∈ GoMap.keys r ↔ v ∈ GoMap.keys s := by
    intro v; rw [m, ho.mem]; simp [IDSet.new]
  refine ⟨r, hr, fun v => ?_, ?_⟩
  · have := m' v
    simp only [← GoMap.has_iff] at this
    rw [Bool.eq_iff_iff]; exact this
  · rw [IDSet.Size, IDSet.Size, GoMap.size_eq, GoMap.size_eq]
    exact List.Perm.length_eq ((List.perm_ext_iff_of_nodup w hs.inv.1).mpr m')

/-- Two orders of the same three-party union. -/
example : let s : IDSet := ⟨[("a", ()), ("b", ())]⟩
    let t : IDSet := ⟨[("b", ()), ("c", ())]⟩
    (∃ r, s.Union t ["b", "a"] ["c", "b"] = .ok r ∧ r.Size = 3 ∧ r.Has "c" = true) ∧
    (∃ r, s.Intersection t ["c", "b"] = .ok r ∧ r.Size = 1 ∧ r.Has "b" = true) :=
  ⟨⟨_, rfl, by decide, by decide⟩, ⟨_, rfl, by decide, by decide⟩⟩

/-! ## C04 -/

section KeyHistory

variable {κ : Type _}

/-- A call on a key set: register a key, or delete the key of a party. -/
inductive KeyCall (κ : Type _) where
  | add (k : κ)
  | del (id : String)

/-- The call concerns party `id`. -/
def KeyCall.Touches (idOf : κ → String) (id : String) : KeyCall κ → Prop
  | .add k => idOf k = id
  | .del i => i = id

def runKeys (idOf : κ → String) (s : KeySet κ) : List (KeyCall κ) → KeySet κ
  | [] => s
  | .add k :: h => runKeys idOf (s.add idOf k) h
  | .del id :: h => runKeys idOf (s.del id) h

/-- Specification: the last call concerning `id` registered `k`. -/
def KeyCall.LastAdd (idOf : κ → String) (h : List (KeyCall κ)) (id : String) (k : κ) : Prop :=
  idOf k = id ∧ ∃ pre post, h = pre ++ KeyCall.add k :: post ∧
    ∀ c ∈ post, ¬ KeyCall.Touches idOf id c

theorem KeyCall.lastAdd_append (idOf : κ → String) (h : List (KeyCall κ)) (c : KeyCall κ)
    (id : String) (k : κ) :
    KeyCall.LastAdd idOf (h ++ [c]) id k ↔
      (c = .add k ∧ idOf k = id) ∨
        (¬ c.Touches idOf id ∧ KeyCall.LastAdd idOf h id k) := by
  constructor
  · rintro ⟨hid, pre, post, he, hp⟩
    rcases List.eq_nil_or_concat post with rfl | ⟨post', d, rfl⟩
    · have := List.append_inj' he rfl
      refine Or.inl ⟨?_, hid⟩
      simpa using this.2
    · rw [List.concat_eq_append, ← List.cons_append, ← List.append_assoc] at he
      have := List.append_inj' he rfl
      have hcd : c = d := by simpa using this.2
      subst hcd
      refine Or.inr ⟨hp _ (by simp), hid, pre, post', this.1, fun x hx => hp _ (by simp [hx])⟩
  · rintro (⟨rfl, hid⟩ | ⟨hn, hid, pre, post, rfl, hp⟩)
    · exact ⟨hid, h, [], rfl, by simp⟩
    · refine ⟨hid, pre, post ++ [c], by simp, ?_⟩
      intro x hx
      rcases List.mem_append.mp hx with hx | hx
      · exact hp _ hx
      · simp only [List.mem_singleton] at hx; subst hx; exact hn

theorem runKeys_append (idOf : κ → String) (h : List (KeyCall κ)) (c : KeyCall κ)
    (s : KeySet κ) :
    runKeys idOf s (h ++ [c]) = runKeys idOf (runKeys idOf s h) [c] := by
  induction h generalizing s with
  | nil => rfl
  | cons d h ih => cases d <;> exact ih _

theorem runKeys_get? (idOf : κ → String) (h : List (KeyCall κ)) (id : String) (k : κ) :
    (runKeys idOf KeySet.new h).value.get? id = some k ↔ KeyCall.LastAdd idOf h id k := by
  induction h using List.reverseRecOn with
  | nil => simp [runKeys, KeySet.new, KeyCall.LastAdd]
  | append_singleton h c ih =>
    rw [runKeys_append, KeyCall.lastAdd_append]
    cases c with
    | add k' =>
      simp only [runKeys, KeySet.add, GoMap.get?_set, KeyCall.Touches, KeyCall.add.injEq]
      by_cases hid : id = idOf k'
      · subst hid
        simp only [if_true, Option.some.injEq, not_true_eq_false, false_and, or_false]
        constructor
        · rintro rfl; exact ⟨rfl, rfl⟩
        · exact fun h => h.1
      · rw [if_neg hid, ih]
        constructor
        · exact fun h => Or.inr ⟨fun hh => hid hh.symm, h⟩
        · rintro (⟨rfl, h⟩ | h)
          · exact absurd h.symm hid
          · exact h.2
    | del i =>
      simp only [runKeys, KeySet.del, GoMap.get?_del, KeyCall.Touches, reduceCtorEq,
        false_and, false_or]
      by_cases hid : id = i
      · simp [hid]
      · rw [if_neg hid, ih]
        constructor
        · exact fun h => ⟨fun hh => hid hh.symm, h⟩
        · exact fun h => h.2

/-- **C04.** After any history, `Get id` returns `k` iff the last call concerning `id` was an
`Add` of `k`; and it panics iff there is no such key.  In particular calls about one party
never change the answer for another. -/
theorem C04_keyset_history (idOf : κ → String) (h : List (KeyCall κ)) (id : String) :
    (∀ k, (runKeys idOf KeySet.new h).get id = .ok k ↔ KeyCall.LastAdd idOf h id k) ∧
    (Go.panics ((runKeys idOf KeySet.new h).get id) ↔ ¬ ∃ k, KeyCall.LastAdd idOf h id k) := by
  have key := runKeys_get? idOf h id
  unfold KeySet.get Go.panics
  cases hg : (runKeys idOf KeySet.new h).value.get? id with
  | none =>
    rw [hg] at key
    refine ⟨fun k => ?_, ?_⟩
    · rw [← key k]; simp
    · simp [← key]
  | some k' =>
    rw [hg] at key
    refine ⟨fun k => ?_, ?_⟩
    · rw [← key k]; simp
    · simp [← key]

end KeyHistory

example : let h : List (KeyCall (String × ℕ)) :=
      [.add ("a", 1), .add ("b", 2), .del "a", .add ("a", 3), .del "b"]
    (runKeys Prod.fst KeySet.new h).get "a" = .ok ("a", 3) ∧
    Go.panics ((runKeys Prod.fst KeySet.new h).get "b") :=
  ⟨rfl, _, rfl⟩

/-! ## C05 -/

section RotHistory

variable {κ : Type _}

inductive RotCall (κ : Type _) where
  | add (k : κ)
  | del (id : String) (r : ℕ)

def RotCall.Touches (idOf : κ → String) (rotIdx : κ → ℕ) (id : String) (r : ℕ) :
    RotCall κ → Prop
  | .add k => idOf k = id ∧ rotIdx k = r
  | .del i r' => i = id ∧ r' = r

def runRot (idOf : κ → String) (rotIdx : κ → ℕ) (s : RotationKeySet κ) :
    List (RotCall κ) → RotationKeySet κ
  | [] => s
  | .add k :: h => runRot idOf rotIdx (s.add idOf rotIdx k) h
  | .del id r :: h => runRot idOf rotIdx (s.del id r) h

/-- Specification: the last call concerning `(id, r)` registered `k`. -/
def RotCall.LastAdd (idOf : κ → String) (rotIdx : κ → ℕ) (h : List (RotCall κ))
    (id : String) (r : ℕ) (k : κ) : Prop :=
  idOf k = id ∧ rotIdx k = r ∧ ∃ pre post, h = pre ++ RotCall.add k :: post ∧
    ∀ c ∈ post, ¬ RotCall.Touches idOf rotIdx id r c

theorem RotCall.lastAdd_append (idOf : κ → String) (rotIdx : κ → ℕ) (h : List (RotCall κ))
    (c : RotCall κ) (id : String) (r : ℕ) (k : κ) :
    RotCall.LastAdd idOf rotIdx (h ++ [c]) id r k ↔
      (c = .add k ∧ idOf k = id ∧ rotIdx k = r) ∨
        (¬ c.Touches idOf rotIdx id r ∧ RotCall.LastAdd idOf rotIdx h id r k) := by
  constructor
  · rintro ⟨hid, hr, pre, post, he, hp⟩
    rcases List.eq_nil_or_concat post with rfl | ⟨post', d, rfl⟩
    · have := List.append_inj' he rfl
      refine Or.inl ⟨?_, hid, hr⟩
      simpa using this.2
    · rw [List.concat_eq_append, ← List.cons_append, ← List.append_assoc] at he
      have := List.append_inj' he rfl
      have hcd : c = d := by simpa using this.2
      subst hcd
      exact Or.inr ⟨hp _ (by simp), hid, hr, pre, post', this.1, fun x hx => hp _ (by simp [hx])⟩
  · rintro (⟨rfl, hid, hr⟩ | ⟨hn, hid, hr, pre, post, rfl, hp⟩)
    · exact ⟨hid, hr, h, [], rfl, by simp⟩
    · refine ⟨hid, hr, pre, post ++ [c], by simp, ?_⟩
      intro x hx
      rcases List.mem_append.mp hx with hx | hx
      · exact hp _ hx
      · simp only [List.mem_singleton] at hx; subst hx; exact hn

theorem runRot_append (idOf : κ → String) (rotIdx : κ → ℕ) (h : List (RotCall κ))
    (c : RotCall κ) (s : RotationKeySet κ) :
    runRot idOf rotIdx s (h ++ [c]) = runRot idOf rotIdx (runRot idOf rotIdx s h) [c] := by
  induction h generalizing s with
  | nil => rfl
  | cons d h ih => cases d <;> exact ih _

/-- Lookup in the two-level map. -/
def RotationKeySet.get2 (s : RotationKeySet κ) (id : String) (r : ℕ) : Option κ :=
  (s.value.get? id).bind (·.get? r)

theorem RotationKeySet.get2_add (idOf : κ → String) (rotIdx : κ → ℕ) (s : RotationKeySet κ)
    (k : κ) (id : String) (r : ℕ) :
    (s.add idOf rotIdx k).get2 id r =
      if id = idOf k ∧ r = rotIdx k then some k else s.get2 id r := by
  unfold RotationKeySet.add RotationKeySet.get2
  by_cases hh : s.value.has (idOf k) = true
  · simp only [hh, if_true]
    obtain ⟨inner, hi⟩ := GoMap.exists_get?_of_mem ((GoMap.has_iff _ _).mp hh)
    simp only [hi, GoMap.get?_set]
    by_cases hid : id = idOf k
    · subst hid; simp only [if_true, Option.bind_some, GoMap.get?_set, true_and, hi]
    · simp [hid]
  · have hnone : s.value.get? (idOf k) = none :=
      (GoMap.get?_eq_none_iff _ _).mpr fun h => hh ((GoMap.has_iff _ _).mpr h)
    rw [if_neg hh]
    simp only [GoMap.get?_set_self, GoMap.get?_set]
    by_cases hid : id = idOf k
    · subst hid
      simp only [if_true, Option.bind_some, GoMap.get?_set, GoMap.empty_get?, true_and,
        hnone, Option.bind_none]
    · simp [hid]

theorem RotationKeySet.get2_del (s : RotationKeySet κ) (i : String) (r' : ℕ) (id : String)
    (r : ℕ) :
    (s.del i r').get2 id r = if id = i ∧ r = r' then none else s.get2 id r := by
  unfold RotationKeySet.del RotationKeySet.get2
  cases hi : s.value.get? i with
  | none =>
    by_cases hid : id = i
    · subst hid; simp [hi]
    · simp [hid]
  | some inner =>
    simp only [GoMap.get?_set]
    by_cases hid : id = i
    · subst hid; simp [hi, GoMap.get?_del]
    · simp [hid]

theorem runRot_get2 (idOf : κ → String) (rotIdx : κ → ℕ) (h : List (RotCall κ)) (id : String)
    (r : ℕ) (k : κ) :
    (runRot idOf rotIdx RotationKeySet.new h).get2 id r = some k ↔
      RotCall.LastAdd idOf rotIdx h id r k := by
  induction h using List.reverseRecOn with
  | nil => simp [runRot, RotationKeySet.new, RotationKeySet.get2, RotCall.LastAdd]
  | append_singleton h c ih =>
    rw [runRot_append, RotCall.lastAdd_append]
    cases c with
    | add k' =>
      simp only [runRot, RotationKeySet.get2_add, RotCall.Touches, RotCall.add.injEq]
      by_cases hid : id = idOf k' ∧ r = rotIdx k'
      · obtain ⟨rfl, rfl⟩ := hid
        simp only [and_self, if_true, Option.some.injEq, not_true_eq_false, false_and, or_false]
        constructor
        · rintro rfl; exact ⟨rfl, rfl, rfl⟩
        · exact fun h => h.1
      · rw [if_neg hid, ih]
        constructor
        · exact fun h => Or.inr ⟨fun hh => hid ⟨hh.1.symm, hh.2.symm⟩, h⟩
        · rintro (⟨rfl, h1, h2⟩ | h)
          · exact absurd ⟨h1.symm, h2.symm⟩ hid
          · exact h.2
    | del i r' =>
      simp only [runRot, RotationKeySet.get2_del, RotCall.Touches, reduceCtorEq,
        false_and, false_or]
      by_cases hid : id = i ∧ r = r'
      · simp [hid]
      · rw [if_neg hid, ih]
        constructor
        · exact fun h => ⟨fun hh => hid ⟨hh.1.symm, hh.2.symm⟩, h⟩
        · exact fun h => h.2

/-- **C05.** After any history of `AddRotationKey`/`DelRotationKey`, `GetRotationKey id r`
returns `k` iff the last call concerning `(id, r)` was an `Add` of `k`, and panics iff there is
no such key. -/
theorem C05_rotation_keyset_history (idOf : κ → String) (rotIdx : κ → ℕ)
    (h : List (RotCall κ)) (id : String) (r : ℕ) :
    (∀ k, (runRot idOf rotIdx RotationKeySet.new h).get id r = .ok k ↔
      RotCall.LastAdd idOf rotIdx h id r k) ∧
    (Go.panics ((runRot idOf rotIdx RotationKeySet.new h).get id r) ↔
      ¬ ∃ k, RotCall.LastAdd idOf rotIdx h id r k) := by
  have key := runRot_get2 idOf rotIdx h id r
  unfold RotationKeySet.get2 at key
  unfold RotationKeySet.get Go.panics
  cases hg : (runRot idOf rotIdx RotationKeySet.new h).value.get? id with
  | none =>
    rw [hg] at key
    simp only [Option.bind_none, reduceCtorEq, false_iff] at key
    refine ⟨fun k => by simpa using key k, by simpa using key⟩
  | some inner =>
    rw [hg] at key
    simp only [Option.bind_some] at key
    cases hr : inner.get? r with
    | none =>
      rw [hr] at key
      simp only [reduceCtorEq, false_iff] at key
      refine ⟨fun k => by simpa [hr] using key k, by simpa [hr] using key⟩
    | some k' =>
      rw [hr] at key
      refine ⟨fun k => by rw [← key k]; simp [hr], by simp [← key, hr]⟩

/-- **C05.** Deleting for an unknown party is a no-op. -/
theorem C05_del_unknown_party (s : RotationKeySet κ) (id : String) (r : ℕ)
    (h : s.value.has id = false) : s.del id r = s := by
  have : s.value.get? id = none := by simpa [GoMap.has] using h
  simp [RotationKeySet.del, this]

end RotHistory

example : let h : List (RotCall (String × ℕ)) :=
      [.add ("a", 1), .add ("a", 2), .del "a" 1, .del "z" 7, .add ("b", 1)]
    let s := runRot Prod.fst Prod.snd RotationKeySet.new h
    s.get "a" 2 = .ok ("a", 2) ∧ Go.panics (s.get "a" 1) ∧ s.get "b" 1 = .ok ("b", 1) :=
  ⟨rfl, ⟨_, rfl⟩, rfl⟩

/-! ## C06 -/

section RelinHistory

variable {κ η : Type _}

def runRelin (idOf : κ → String) (fresh : η) (s : RelinKeySet κ η) :
    List (KeyCall κ) → RelinKeySet κ η
  | [] => s
  | .add k :: h => runRelin idOf fresh (s.add idOf fresh k) h
  | .del id :: h => runRelin idOf fresh (s.del id) h

theorem runRelin_value (idOf : κ → String) (fresh : η) (h : List (KeyCall κ))
    (s : RelinKeySet κ η) :
    (runRelin idOf fresh s h).value = (runKeys idOf ⟨s.value⟩ h).value := by
  induction h generalizing s with
  | nil => rfl
  | cons c h ih => cases c <;> exact ih _

theorem runRelin_pools (idOf : κ → String) (fresh : η) (h : List (KeyCall κ))
    (s : RelinKeySet κ η)
    (hs : ∀ id, s.value.has id = true → s.pool0.has id = true ∧ s.pool1.has id = true) :
    ∀ id, (runRelin idOf fresh s h).value.has id = true →
      (runRelin idOf fresh s h).pool0.has id = true ∧
      (runRelin idOf fresh s h).pool1.has id = true := by
  induction h generalizing s with
  | nil => exact hs
  | cons c h ih =>
    cases c with
    | add k =>
      refine ih _ fun id hid => ?_
      simp only [GoMap.has_iff, RelinKeySet.add, GoMap.mem_keys_set] at hid hs ⊢
      rcases hid with h | h
      · exact ⟨Or.inl h, Or.inl h⟩
      · exact ⟨Or.inr (hs _ h).1, Or.inr (hs _ h).2⟩
    | del i =>
      refine ih _ fun id hid => ?_
      simp only [GoMap.has_iff, RelinKeySet.del, GoMap.mem_keys_del] at hid hs ⊢
      exact hs _ hid.1

/-- **C06.** After any history of `AddRelinearizationKey`/`DelRelinearizationKey`:
`Get` returns the last key added and not deleted, panics otherwise, and every party for which
`Get` succeeds has scratch space in both hoisting pools. -/
theorem C06_relin_keyset_history (idOf : κ → String) (fresh : η) (h : List (KeyCall κ))
    (id : String) :
    let s := runRelin idOf fresh RelinKeySet.new h
    (∀ k, s.get id = .ok k ↔ KeyCall.LastAdd idOf h id k) ∧
    (Go.panics (s.get id) ↔ ¬ ∃ k, KeyCall.LastAdd idOf h id k) ∧
    ((∃ k, s.get id = .ok k) → (∃ p, s.pool0.deref id = .ok p) ∧ ∃ p, s.pool1.deref id = .ok p) := by
  intro s
  have key := runKeys_get? idOf h id
  have hv : s.value = (runKeys idOf KeySet.new h).value := runRelin_value idOf fresh h _
  rw [← hv] at key
  have hp := runRelin_pools idOf fresh h (RelinKeySet.new) (by simp [RelinKeySet.new, GoMap.has]) id
  refine ⟨fun k => ?_, ?_, ?_⟩
  · rw [← key k]; unfold RelinKeySet.get
    cases s.value.get? id <;> simp
  · simp only [← key]; unfold RelinKeySet.get Go.panics
    cases s.value.get? id <;> simp
  · rintro ⟨k, hk⟩
    have hh : s.value.has id = true := by
      unfold RelinKeySet.get at hk
      unfold GoMap.has
      cases hg : s.value.get? id with
      | none => rw [hg] at hk; cases hk
      | some _ => rfl
    obtain ⟨h0, h1⟩ := hp hh
    obtain ⟨p0, e0⟩ := GoMap.exists_get?_of_mem ((GoMap.has_iff _ _).mp h0)
    obtain ⟨p1, e1⟩ := GoMap.exists_get?_of_mem ((GoMap.has_iff _ _).mp h1)
    exact ⟨⟨p0, by simp [GoMap.deref, s, e0]⟩, ⟨p1, by simp [GoMap.deref, s, e1]⟩⟩

/-- The converse of the pool invariant fails: deleting a key leaves its scratch space. -/
theorem C06_del_keeps_pool (idOf : κ → String) (fresh : η) (s : RelinKeySet κ η) (k : κ) :
    ((s.add idOf fresh k).del (idOf k)).pool0.has (idOf k) = true ∧
      Go.panics (((s.add idOf fresh k).del (idOf k)).get (idOf k)) := by
  refine ⟨?_, ?_⟩
  · simp [RelinKeySet.add, RelinKeySet.del, GoMap.has]
  · simp [RelinKeySet.add, RelinKeySet.del, RelinKeySet.get, GoMap.get?_del, Go.panics]

end RelinHistory

example :
    let h : List (KeyCall (String × ℕ)) := [.add ("a", 1), .add ("b", 2), .del "b"]
    let s := runRelin Prod.fst (0 : ℕ) RelinKeySet.new h
    s.get "a" = .ok ("a", 1) ∧ s.pool1.deref "a" = .ok 0 ∧ Go.panics (s.get "b") :=
  ⟨rfl, rfl, _, rfl⟩

end MK
