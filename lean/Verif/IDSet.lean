import Verif.Go

/-!
# mkrlwe/idset.go
-/

namespace MK

/-- `type IDSet struct { Value map[string]struct{} }` (mkrlwe/idset.go 3-5). -/
abbrev IDSet := GoMap String Unit

namespace IDSet

/-- `NewIDSet` (mkrlwe/idset.go 27-31). -/
def new : IDSet := GoMap.empty

/-- `Has` (mkrlwe/idset.go 7-10). -/
def Has (s : IDSet) (v : String) : Bool := GoMap.has s v

/-- `Add` (mkrlwe/idset.go 12-17). -/
def Add (s : IDSet) (v : String) : Go IDSet :=
  if v = "0" then .error (.msg "Cannot IDSet Add : 0 cannot be used")
  else .ok (GoMap.set s v ())

/-- `Remove` (mkrlwe/idset.go 19-21). -/
def Remove (s : IDSet) (v : String) : IDSet := GoMap.del s v

/-- `Size` (mkrlwe/idset.go 23-25). -/
def Size (s : IDSet) : ℕ := GoMap.size s

/-- The loop `for v := range ... { res.Add(v) }` over a given visiting order
(mkrlwe/idset.go 35-37, 54-60). -/
def addAll (res : IDSet) : List String → Go IDSet
  | [] => .ok res
  | v :: o => do
    let res ← res.Add v
    addAll res o

/-- `CopyNew` (mkrlwe/idset.go 33-39); `o` is the order in which Go visits `s.Value`. -/
def CopyNew (_s : IDSet) (o : List String) : Go IDSet := addAll new o

/-- The loop of `Intersection` (mkrlwe/idset.go 43-47). -/
def interLoop (s res : IDSet) : List String → Go IDSet
  | [] => .ok res
  | v :: o =>
    if s.Has v then do
      let res ← res.Add v
      interLoop s res o
    else interLoop s res o

/-- `Intersection` (mkrlwe/idset.go 41-50); `o2` is the visiting order of `s2.Value`. -/
def Intersection (s _s2 : IDSet) (o2 : List String) : Go IDSet := interLoop s new o2

/-- `Union` (mkrlwe/idset.go 52-62); `o1`, `o2` are the visiting orders of `s.Value` and
`s2.Value`. -/
def Union (_s _s2 : IDSet) (o1 o2 : List String) : Go IDSet := do
  let res ← addAll new o1
  addAll res o2

/-! ## Lemmas -/

theorem addAll_spec (o : List String) (h0 : "0" ∉ o) (res : IDSet) (hw : GoMap.WF res) :
    ∃ r, addAll res o = .ok r ∧ GoMap.WF r ∧
      ∀ v, v ∈ GoMap.keys r ↔ v ∈ GoMap.keys res ∨ v ∈ o := by
  induction o generalizing res with
  | nil => exact ⟨res, rfl, hw, by simp⟩
  | cons a o ih =>
    have ha : a ≠ "0" := fun h => h0 (by simp [h])
    have ho : "0" ∉ o := fun h => h0 (by simp [h])
    obtain ⟨r, hr, hrw, hm⟩ := ih ho (GoMap.set res a ()) (hw.set a ())
    refine ⟨r, ?_, hrw, ?_⟩
    · simp only [addAll, Add, if_neg ha]; exact hr
    · intro v
      rw [hm, GoMap.mem_keys_set]
      simp only [List.mem_cons]; tauto

theorem addAll_zero (o : List String) (h0 : "0" ∈ o) (res : IDSet) :
    Go.panics (addAll res o) := by
  induction o generalizing res with
  | nil => simp at h0
  | cons a o ih =>
    by_cases ha : a = "0"
    · exact ⟨_, by simp only [addAll, Add, if_pos ha]; rfl⟩
    · have : "0" ∈ o := by
        rcases List.mem_cons.mp h0 with h | h
        · exact absurd h.symm ha
        · exact h
      obtain ⟨p, hp⟩ := ih this (GoMap.set res a ())
      exact ⟨p, by simp only [addAll, Add, if_neg ha]; exact hp⟩

theorem interLoop_spec (s : IDSet) (h0 : "0" ∉ GoMap.keys s) (o : List String)
    (res : IDSet) (hw : GoMap.WF res) :
    ∃ r, interLoop s res o = .ok r ∧ GoMap.WF r ∧
      ∀ v, v ∈ GoMap.keys r ↔ v ∈ GoMap.keys res ∨ (v ∈ o ∧ v ∈ GoMap.keys s) := by
  induction o generalizing res with
  | nil => exact ⟨res, rfl, hw, by simp⟩
  | cons a o ih =>
    by_cases hs : s.Has a = true
    · have hmem : a ∈ GoMap.keys s := (GoMap.has_iff _ _).mp hs
      have ha : a ≠ "0" := fun h => h0 (h ▸ hmem)
      obtain ⟨r, hr, hrw, hm⟩ := ih (GoMap.set res a ()) (hw.set a ())
      refine ⟨r, ?_, hrw, ?_⟩
      · simp only [interLoop, hs, if_true, Add, if_neg ha]; exact hr
      · intro v
        rw [hm, GoMap.mem_keys_set]
        simp only [List.mem_cons]
        constructor
        · rintro ((rfl | h) | h)
          · exact Or.inr ⟨Or.inl rfl, hmem⟩
          · exact Or.inl h
          · exact Or.inr ⟨Or.inr h.1, h.2⟩
        · rintro (h | ⟨rfl | h, h'⟩)
          · exact Or.inl (Or.inr h)
          · exact Or.inl (Or.inl rfl)
          · exact Or.inr ⟨h, h'⟩
    · have hmem : a ∉ GoMap.keys s := fun h => hs ((GoMap.has_iff _ _).mpr h)
      obtain ⟨r, hr, hrw, hm⟩ := ih res hw
      refine ⟨r, ?_, hrw, ?_⟩
      · simp only [interLoop]; rw [if_neg hs]; exact hr
      · intro v
        rw [hm]
        simp only [List.mem_cons]
        constructor
        · rintro (h | ⟨h, h'⟩)
          · exact Or.inl h
          · exact Or.inr ⟨Or.inr h, h'⟩
        · rintro (h | ⟨rfl | h, h'⟩)
          · exact Or.inl h
          · exact absurd h' hmem
          · exact Or.inr ⟨h, h'⟩

end IDSet

end MK
