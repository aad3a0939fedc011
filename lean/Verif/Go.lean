import Mathlib.Data.List.Nodup
import Mathlib.Data.List.Perm.Basic
import Mathlib.Data.List.Dedup

/-!
# Go runtime fragments used by the model

Panics, and Go maps with an arbitrary iteration order.
-/

namespace MK

/-- Run-time failures of the Go program (explicit `panic`, nil dereference, slice index
out of range). -/
inductive Panic where
  | msg (s : String)
  | nilDeref
  | indexRange
  deriving DecidableEq, Repr

/-- A Go computation: a value or a panic. -/
abbrev Go (α : Type _) := Except Panic α

/-- "The computation panics." -/
def Go.panics {α : Type _} (x : Go α) : Prop := ∃ p, x = .error p

@[simp] theorem Go.ok_bind {α β : Type _} (a : α) (f : α → Go β) :
    (Except.ok a >>= f : Go β) = f a := rfl
@[simp] theorem Go.error_bind {α β : Type _} (p : Panic) (f : α → Go β) :
    (Except.error p >>= f : Go β) = Except.error p := rfl
@[simp] theorem Go.pure_eq {α : Type _} (a : α) : (pure a : Go α) = Except.ok a := rfl

theorem Go.bind_panics {α β : Type _} {x : Go α} (h : x.panics) (f : α → Go β) :
    Go.panics (x >>= f) := by
  obtain ⟨p, rfl⟩ := h
  exact ⟨p, rfl⟩

/-- A Go `map[K]V`: an association list.  Go maps are unordered; `entries` only fixes the
contents.  `range` loops take an explicit order, see `GoMap.IsOrder`. -/
structure GoMap (K : Type _) (V : Type _) where
  entries : List (K × V)
  deriving Repr

namespace GoMap

variable {K : Type _} {V : Type _} [DecidableEq K]

/-- `make(map[K]V)` -/
def empty : GoMap K V := ⟨[]⟩

/-- The keys in an unspecified order. -/
def keys (m : GoMap K V) : List K := m.entries.map Prod.fst

/-- `v, ok := m[k]` -/
def get? (m : GoMap K V) (k : K) : Option V := m.entries.lookup k

/-- `_, ok := m[k]` -/
def has (m : GoMap K V) (k : K) : Bool := (m.get? k).isSome

/-- `m[k]` for a map of pointers, followed by a dereference: absent keys give nil. -/
def deref (m : GoMap K V) (k : K) : Go V :=
  match m.get? k with
  | some v => .ok v
  | none => .error .nilDeref

theorem deref_of_get? {m : GoMap K V} {k : K} {v : V} (h : m.get? k = some v) :
    m.deref k = .ok v := by simp [deref, h]

theorem deref_panics_iff (m : GoMap K V) (k : K) : Go.panics (m.deref k) ↔ m.get? k = none := by
  unfold deref Go.panics
  cases m.get? k <;> simp

/-- `delete(m, k)` -/
def del (m : GoMap K V) (k : K) : GoMap K V := ⟨m.entries.filter (fun e => e.1 ≠ k)⟩

/-- `m[k] = v` -/
def set (m : GoMap K V) (k : K) (v : V) : GoMap K V :=
  if m.has k then ⟨m.entries.map fun e => if e.1 = k then (k, v) else e⟩
  else ⟨m.entries ++ [(k, v)]⟩

/-- `len(m)` -/
def size (m : GoMap K V) : ℕ := m.entries.length

/-- Representation invariant: each key occurs once. -/
def WF (m : GoMap K V) : Prop := m.keys.Nodup

/-- A possible iteration order of `for k := range m`: Go visits every key exactly once, in
an unspecified order. -/
def IsOrder (m : GoMap K V) (o : List K) : Prop := o.Perm m.keys

omit [DecidableEq K] in
@[simp] theorem empty_keys : (empty : GoMap K V).keys = [] := rfl
@[simp] theorem empty_get? (k : K) : (empty : GoMap K V).get? k = none := rfl
omit [DecidableEq K] in
@[simp] theorem empty_size : (empty : GoMap K V).size = 0 := rfl
omit [DecidableEq K] in
theorem empty_wf : (empty : GoMap K V).WF := List.nodup_nil

theorem lookup_isSome_iff (l : List (K × V)) (k : K) :
    (l.lookup k).isSome ↔ k ∈ l.map Prod.fst := by
  induction l with
  | nil => simp
  | cons e l ih =>
    obtain ⟨a, b⟩ := e
    by_cases h : k = a
    · subst h; simp
    · have : (k == a) = false := by simpa using h
      simp [List.lookup_cons, this, ih, h]

theorem has_iff (m : GoMap K V) (k : K) : m.has k = true ↔ k ∈ m.keys :=
  lookup_isSome_iff m.entries k

theorem get?_eq_none_iff (m : GoMap K V) (k : K) : m.get? k = none ↔ k ∉ m.keys := by
  rw [← has_iff]; simp [has]

theorem mem_keys_of_get? {m : GoMap K V} {k : K} {v : V} (h : m.get? k = some v) :
    k ∈ m.keys := by
  rw [← has_iff]; simp [has, h]

theorem exists_get?_of_mem {m : GoMap K V} {k : K} (h : k ∈ m.keys) :
    ∃ v, m.get? k = some v := by
  rw [← has_iff] at h
  exact Option.isSome_iff_exists.mp h

theorem lookup_filter_ne (l : List (K × V)) (k k' : K) :
    (l.filter (fun e => e.1 ≠ k)).lookup k' = if k' = k then none else l.lookup k' := by
  induction l with
  | nil => simp
  | cons e l ih =>
    obtain ⟨a, b⟩ := e
    by_cases ha : a = k
    · subst ha
      rw [List.filter_cons_of_neg (by simp), ih]
      by_cases hk : k' = a
      · simp [hk]
      · have : (k' == a) = false := by simpa using hk
        simp [hk, List.lookup_cons, this]
    · rw [List.filter_cons_of_pos (by simpa using ha)]
      by_cases hk : k' = a
      · subst hk; simp [ha]
      · have : (k' == a) = false := by simpa using hk
        simp only [List.lookup_cons, this, ih]

theorem get?_del (m : GoMap K V) (k k' : K) :
    (m.del k).get? k' = if k' = k then none else m.get? k' :=
  lookup_filter_ne m.entries k k'

theorem lookup_append_single (l : List (K × V)) (k k' : K) (v : V) :
    (l ++ [(k, v)]).lookup k' = (l.lookup k').or (if k' = k then some v else none) := by
  induction l with
  | nil =>
    by_cases h : k' = k
    · simp [h]
    · have : (k' == k) = false := by simpa using h
      simp [h, List.lookup_cons, this]
  | cons e l ih =>
    obtain ⟨a, b⟩ := e
    by_cases h : k' = a
    · subst h; simp
    · have : (k' == a) = false := by simpa using h
      simp only [List.cons_append, List.lookup_cons, this, ih]

theorem lookup_map_set (l : List (K × V)) (k k' : K) (v : V) (h : k ∈ l.map Prod.fst) :
    (l.map fun e => if e.1 = k then (k, v) else e).lookup k' =
      if k' = k then some v else l.lookup k' := by
  induction l with
  | nil => simp at h
  | cons e l ih =>
    obtain ⟨a, b⟩ := e
    by_cases ha : a = k
    · subst ha
      by_cases hk : k' = a
      · subst hk; simp
      · have hb : (k' == a) = false := by simpa using hk
        by_cases hm : a ∈ l.map Prod.fst
        · have := ih hm
          simp only [List.map_cons, if_true, List.lookup_cons, hb, hk, if_false] at this ⊢
          exact this
        · have : l.map (fun e => if e.1 = a then (a, v) else e) = l := by
            conv_rhs => rw [← List.map_id l]
            refine List.map_congr_left fun e he => if_neg fun h => hm ?_
            exact List.mem_map.mpr ⟨e, he, h⟩
          simp only [List.map_cons, if_true, List.lookup_cons, hb, hk, if_false, this]
    · have hm : k ∈ l.map Prod.fst := by
        rcases List.mem_cons.mp h with h | h
        · exact absurd h.symm ha
        · exact h
      by_cases hk : k' = a
      · subst hk; simp [ha]
      · have hb : (k' == a) = false := by simpa using hk
        simp only [List.map_cons, ha, if_false, List.lookup_cons, hb, ih hm]

theorem get?_set (m : GoMap K V) (k k' : K) (v : V) :
    (m.set k v).get? k' = if k' = k then some v else m.get? k' := by
  unfold set
  split
  · next h => exact lookup_map_set m.entries k k' v ((has_iff m k).mp h)
  · next h =>
    have hn : m.entries.lookup k = none :=
      Option.not_isSome_iff_eq_none.mp h
    unfold get?
    simp only [lookup_append_single]
    by_cases hk : k' = k
    · subst hk; simp [hn]
    · simp [hk]

@[simp] theorem get?_set_self (m : GoMap K V) (k : K) (v : V) :
    (m.set k v).get? k = some v := by simp [get?_set]

theorem get?_set_of_ne (m : GoMap K V) {k k' : K} (v : V) (h : k' ≠ k) :
    (m.set k v).get? k' = m.get? k' := by simp [get?_set, h]

theorem keys_del (m : GoMap K V) (k : K) : (m.del k).keys = m.keys.filter (· ≠ k) := by
  simp [keys, del, List.filter_map, Function.comp_def]

theorem keys_set (m : GoMap K V) (k : K) (v : V) :
    (m.set k v).keys = if k ∈ m.keys then m.keys else m.keys ++ [k] := by
  unfold set
  by_cases h : m.has k = true
  · rw [if_pos h, if_pos ((has_iff m k).mp h)]
    simp only [keys, List.map_map]
    refine List.map_congr_left fun e _ => ?_
    by_cases he : e.1 = k <;> simp [he]
  · rw [if_neg h, if_neg fun h' => h ((has_iff m k).mpr h')]
    simp [keys]

theorem mem_keys_del {m : GoMap K V} {k k' : K} :
    k' ∈ (m.del k).keys ↔ k' ∈ m.keys ∧ k' ≠ k := by simp [keys_del]

theorem mem_keys_set {m : GoMap K V} {k k' : K} {v : V} :
    k' ∈ (m.set k v).keys ↔ k' = k ∨ k' ∈ m.keys := by
  rw [keys_set]
  split
  · next h =>
    constructor
    · exact Or.inr
    · rintro (rfl | h')
      · exact h
      · exact h'
  · rw [List.mem_append, List.mem_singleton, or_comm]

theorem WF.del {m : GoMap K V} (h : m.WF) (k : K) : (m.del k).WF := by
  unfold WF; rw [keys_del]; exact List.Nodup.filter _ h

theorem WF.set {m : GoMap K V} (h : m.WF) (k : K) (v : V) : (m.set k v).WF := by
  unfold WF; rw [keys_set]
  split
  · exact h
  · next hn =>
    refine List.Nodup.append h (by simp) ?_
    simpa using hn

omit [DecidableEq K] in
theorem size_eq (m : GoMap K V) : m.size = m.keys.length := by simp [size, keys]

omit [DecidableEq K] in
theorem IsOrder.nodup {m : GoMap K V} (h : m.WF) {o : List K} (ho : m.IsOrder o) : o.Nodup :=
  ho.nodup_iff.mpr h

omit [DecidableEq K] in
theorem IsOrder.mem {m : GoMap K V} {o : List K} (ho : m.IsOrder o) {k : K} :
    k ∈ o ↔ k ∈ m.keys := ho.mem_iff

omit [DecidableEq K] in
/-- Two well-formed maps with the same lookup have the same keys up to order. -/
theorem keys_perm_of_get? {m m' : GoMap K V} (h : m.WF) (h' : m'.WF)
    (hk : ∀ k, k ∈ m.keys ↔ k ∈ m'.keys) : m.keys.Perm m'.keys :=
  (List.perm_ext_iff_of_nodup h h').mpr hk

/-- Extensional equality of maps: what a Go program can observe (apart from the iteration
order, which is unspecified). -/
def Equiv (m m' : GoMap K V) : Prop := ∀ k, m.get? k = m'.get? k

/-- Change every value (used when a loop overwrites every entry in place). -/
def mapVals {W : Type _} (f : K → V → W) (m : GoMap K V) : GoMap K W :=
  ⟨m.entries.map (fun e => (e.1, f e.1 e.2))⟩

omit [DecidableEq K] in
@[simp] theorem keys_mapVals {W : Type _} (f : K → V → W) (m : GoMap K V) :
    (m.mapVals f).keys = m.keys := by
  simp [keys, mapVals, Function.comp_def]

theorem get?_mapVals {W : Type _} (f : K → V → W) (m : GoMap K V) (k : K) :
    (m.mapVals f).get? k = (m.get? k).map (f k) := by
  obtain ⟨l⟩ := m
  induction l with
  | nil => rfl
  | cons e l ih =>
    obtain ⟨a, b⟩ := e
    unfold mapVals get? at *
    by_cases h : k = a
    · subst h; simp
    · have : (k == a) = false := by simpa using h
      simp only [List.map_cons, List.lookup_cons, this]
      exact ih

omit [DecidableEq K] in
theorem WF.mapVals {W : Type _} {m : GoMap K V} (h : m.WF) (f : K → V → W) :
    (m.mapVals f).WF := by unfold WF; rw [keys_mapVals]; exact h

end GoMap

end MK
