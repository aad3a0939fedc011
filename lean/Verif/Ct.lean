import Verif.Ring
import Verif.IDSet
import Verif.Keys

/-!
# mkrlwe/elements.go: multi-key ciphertexts
-/

noncomputable section

namespace MK

/-- `mkrlwe.Ciphertext` (mkrlwe/elements.go 17-19): `map[string]*ring.Poly`; the key `"0"`
holds the constant component. -/
structure Ct (C : Ctx) where
  value : GoMap String (RQ C)

namespace Ct

variable {C : Ctx}

/-- The loop of `NewCiphertext` allocating one zero polynomial per id (mkrlwe/elements.go 28-30). -/
def allocLoop (level : ℕ) (m : GoMap String (RQ C)) : List String → GoMap String (RQ C)
  | [] => m
  | id :: o => allocLoop level (m.set id (RPoly.new (level + 1))) o

/-- `NewCiphertext` (mkrlwe/elements.go 22-33); `o` is the visiting order of the id set. -/
def new (level : ℕ) (o : List String) : Ct C :=
  ⟨allocLoop level (GoMap.empty.set "0" (RPoly.new (level + 1))) o⟩

/-- `NewCiphertextNTT` (mkrlwe/elements.go 36-44). -/
def newNTT (level : ℕ) (o : List String) : Ct C :=
  ⟨(new level o : Ct C).value.mapVals fun _ p => { p with isNTT := true }⟩

/-- The loop of `IDSet()` (mkrlwe/elements.go 50-54). -/
def idLoop (s : IDSet) : List String → Go IDSet
  | [] => .ok s
  | id :: o =>
    if id ≠ "0" then do
      let s ← s.Add id
      idLoop s o
    else idLoop s o

/-- `IDSet()` (mkrlwe/elements.go 47-57); `o` is the visiting order of `el.Value`. -/
def IDSet (_el : Ct C) (o : List String) : Go MK.IDSet := idLoop IDSet.new o

/-- `Level()` (mkrlwe/elements.go 60-62): `len(el.Value["0"].Coeffs) - 1`; dereferences nil
when there is no `"0"` component. -/
def Level (el : Ct C) : Go ℕ := do
  let c0 ← el.value.deref "0"
  return c0.level

/-- The loop of `CopyNew` (mkrlwe/elements.go 76-78). -/
def copyLoop (el : Ct C) (m : GoMap String (RQ C)) : List String → Go (GoMap String (RQ C))
  | [] => .ok m
  | id :: o => do
    let p ← el.value.deref id
    copyLoop el (m.set id p) o

/-- `CopyNew` (mkrlwe/elements.go 70-81). -/
def CopyNew (el : Ct C) (o : List String) : Go (Ct C) := do
  let c0 ← el.value.deref "0"
  let m ← copyLoop el (GoMap.empty.set "0" c0) o
  return ⟨m⟩

/-- The loop of `Copy` (mkrlwe/elements.go 85-87). -/
def copyIntoLoop (ct : Ct C) (el : GoMap String (RQ C)) : List String →
    Go (GoMap String (RQ C))
  | [] => .ok el
  | id :: o => do
    let src ← ct.value.deref id
    let dst ← el.deref id
    copyIntoLoop ct (el.set id (src.copy dst)) o

/-- `el.Copy(ct)` (mkrlwe/elements.go 84-88); `o` is the visiting order of `ct.Value`. -/
def Copy (el ct : Ct C) (o : List String) : Go (Ct C) := do
  let m ← copyIntoLoop ct el.value o
  return ⟨m⟩

/-- The loop of `PadCiphertext` (mkrlwe/elements.go 99-104). -/
def padLoop (oldIDs : MK.IDSet) (len : ℕ) (isNTT : Bool) (m : GoMap String (RQ C)) :
    List String → GoMap String (RQ C)
  | [] => m
  | id :: o =>
    if oldIDs.Has id then padLoop oldIDs len isNTT m o
    else padLoop oldIDs len isNTT (m.set id { RPoly.new len with isNTT := isNTT }) o

/-- `PadCiphertext` (mkrlwe/elements.go 91-105); `oEl` is the visiting order of `el.Value`
(inside `el.IDSet()`), `o` that of the id set. -/
def PadCiphertext (el : Ct C) (oEl o : List String) : Go (Ct C) := do
  let c0 ← el.value.deref "0"
  let oldIDs ← el.IDSet oEl
  let level ← el.Level
  return ⟨padLoop oldIDs (level + 1) c0.isNTT el.value o⟩

/-! ## Specification: components and phase -/

/-- The ring element party `id` contributes at modulus `i`; `0` if absent. -/
def comp (ct : Ct C) (id : String) (i : ℕ) : Nega C.N (ZMod (C.q i)) :=
  match ct.value.get? id with
  | some p => p.val C.nttQ i
  | none => 0

/-- Secret of party `id` extended by `1` for the constant component. -/
def secretOf (s : String → Nega C.N ℤ) (id : String) : Nega C.N ℤ :=
  if id = "0" then 1 else s id

/-- The phase `c_0 + Σ_id c_id * s_id` modulo `q_i`. -/
def phase (ct : Ct C) (s : String → Nega C.N ℤ) (i : ℕ) : Nega C.N (ZMod (C.q i)) :=
  ∑ id ∈ ct.value.keys.toFinset, ct.comp id i * Nega.red (C.q i) (secretOf s id)

/-- The participants. -/
def parties (ct : Ct C) : Finset String := ct.value.keys.toFinset.erase "0"

theorem comp_of_not_mem {ct : Ct C} {id : String} (h : id ∉ ct.value.keys) (i : ℕ) :
    ct.comp id i = 0 := by
  unfold comp
  rw [(GoMap.get?_eq_none_iff _ _).mpr h]

theorem comp_of_get? {ct : Ct C} {id : String} {p : RQ C} (h : ct.value.get? id = some p)
    (i : ℕ) : ct.comp id i = p.val C.nttQ i := by
  unfold comp; rw [h]

/-- The phase can be summed over any larger set of identifiers. -/
theorem phase_eq_sum_of_subset (ct : Ct C) (s : String → Nega C.N ℤ) (i : ℕ)
    {S : Finset String} (hS : ct.value.keys.toFinset ⊆ S) :
    ct.phase s i = ∑ id ∈ S, ct.comp id i * Nega.red (C.q i) (secretOf s id) := by
  unfold phase
  refine Finset.sum_subset hS fun id _ hid => ?_
  rw [comp_of_not_mem (by simpa using hid), zero_mul]

/-- The ciphertext carries the integer polynomial `m` under the secrets `s`, up to level `L`. -/
def Carries (ct : Ct C) (s : String → Nega C.N ℤ) (L : ℕ) (m : Nega C.N ℤ) : Prop :=
  ∀ i ≤ L, ct.phase s i = Nega.red (C.q i) m

/-- Two ciphertexts with the same components have the same phase. -/
theorem phase_congr {a b : Ct C} (s : String → Nega C.N ℤ) (i : ℕ)
    (h : ∀ id, a.comp id i = b.comp id i) : a.phase s i = b.phase s i := by
  rw [phase_eq_sum_of_subset a s i (S := a.value.keys.toFinset ∪ b.value.keys.toFinset)
      Finset.subset_union_left,
    phase_eq_sum_of_subset b s i (S := a.value.keys.toFinset ∪ b.value.keys.toFinset)
      Finset.subset_union_right]
  exact Finset.sum_congr rfl fun id _ => by rw [h]

/-- A well-formed ciphertext of level `L`: a `"0"` component exists, all components have
`L + 1` rows and the same NTT flag `b`, and keys are distinct. -/
structure Wf (ct : Ct C) (L : ℕ) (b : Bool) : Prop where
  wf : ct.value.WF
  zero_mem : "0" ∈ ct.value.keys
  len : ∀ id p, ct.value.get? id = some p → p.len = L + 1
  ntt : ∀ id p, ct.value.get? id = some p → p.isNTT = b

theorem Wf.level {ct : Ct C} {L : ℕ} {b : Bool} (h : ct.Wf L b) : ct.Level = .ok L := by
  obtain ⟨p, hp⟩ := GoMap.exists_get?_of_mem h.zero_mem
  have := h.len _ _ hp
  simp [Level, GoMap.deref, hp, RPoly.level, this, bind, Except.bind, pure, Except.pure]

/-- A ciphertext whose constant component has `L + 1` rows and whose other components have at
least as many (`Encrypt` of a plaintext of lower level into a padded ciphertext leaves such). -/
structure Ragged (ct : Ct C) (L : ℕ) (b : Bool) : Prop where
  wf : ct.value.WF
  zero_mem : "0" ∈ ct.value.keys
  len0 : ∀ p, ct.value.get? "0" = some p → p.len = L + 1
  len : ∀ id p, ct.value.get? id = some p → L + 1 ≤ p.len
  ntt : ∀ id p, ct.value.get? id = some p → p.isNTT = b

theorem Wf.ragged {ct : Ct C} {L : ℕ} {b : Bool} (h : ct.Wf L b) : ct.Ragged L b :=
  ⟨h.wf, h.zero_mem, h.len "0", fun id p hp => (h.len id p hp).ge, h.ntt⟩

theorem Ragged.level {ct : Ct C} {L : ℕ} {b : Bool} (h : ct.Ragged L b) : ct.Level = .ok L := by
  obtain ⟨p, hp⟩ := GoMap.exists_get?_of_mem h.zero_mem
  have := h.len0 _ hp
  simp [Level, GoMap.deref, hp, RPoly.level, this, bind, Except.bind, pure, Except.pure]

/-! ## Loop lemmas -/

theorem allocLoop_get? (level : ℕ) (o : List String) (m : GoMap String (RQ C)) (id : String) :
    (allocLoop level m o).get? id =
      if id ∈ o then some (RPoly.new (level + 1)) else m.get? id := by
  induction o generalizing m with
  | nil => simp [allocLoop]
  | cons a o ih =>
    simp only [allocLoop, ih, GoMap.get?_set, List.mem_cons]
    by_cases h1 : id ∈ o <;> by_cases h2 : id = a <;> simp [h1, h2]

theorem allocLoop_wf (level : ℕ) (o : List String) (m : GoMap String (RQ C)) (h : m.WF) :
    (allocLoop level m o).WF := by
  induction o generalizing m with
  | nil => exact h
  | cons a o ih => exact ih _ (h.set _ _)

theorem new_get? (level : ℕ) (o : List String) (id : String) :
    (new level o : Ct C).value.get? id =
      if id ∈ o ∨ id = "0" then some (RPoly.new (level + 1)) else none := by
  simp only [new, allocLoop_get?, GoMap.get?_set, GoMap.empty_get?]
  by_cases h1 : id ∈ o <;> by_cases h2 : id = "0" <;> simp [h1, h2]

theorem new_wf (level : ℕ) (o : List String) : (new level o : Ct C).Wf level false := by
  refine ⟨allocLoop_wf _ _ _ (GoMap.empty_wf.set _ _), ?_, ?_, ?_⟩
  · rw [← GoMap.has_iff, GoMap.has, new_get?]; simp
  · intro id p h
    rw [new_get?] at h
    split at h
    · cases h; rfl
    · cases h
  · intro id p h
    rw [new_get?] at h
    split at h
    · cases h; rfl
    · cases h

theorem newNTT_wf (level : ℕ) (o : List String) : (newNTT level o : Ct C).Wf level true := by
  have h := new_wf (C := C) level o
  refine ⟨h.wf.mapVals _, ?_, ?_, ?_⟩
  · simpa [newNTT] using h.zero_mem
  · intro id p hp
    simp only [newNTT, GoMap.get?_mapVals, Option.map_eq_some_iff] at hp
    obtain ⟨p', hp', rfl⟩ := hp
    exact h.len id p' hp'
  · intro id p hp
    simp only [newNTT, GoMap.get?_mapVals, Option.map_eq_some_iff] at hp
    obtain ⟨p', hp', rfl⟩ := hp
    rfl

theorem idLoop_spec (o : List String) (s : MK.IDSet) (hs : GoMap.WF s) :
    ∃ r, idLoop s o = .ok r ∧ GoMap.WF r ∧
      ∀ v, v ∈ GoMap.keys r ↔ v ∈ GoMap.keys s ∨ (v ∈ o ∧ v ≠ "0") := by
  induction o generalizing s with
  | nil => exact ⟨s, rfl, hs, by simp⟩
  | cons a o ih =>
    by_cases ha : a = "0"
    · obtain ⟨r, hr, hw, hm⟩ := ih s hs
      refine ⟨r, by simpa [idLoop, ha] using hr, hw, fun v => ?_⟩
      rw [hm]; simp only [List.mem_cons]
      subst ha; tauto
    · obtain ⟨r, hr, hw, hm⟩ := ih (GoMap.set s a ()) (hs.set a ())
      refine ⟨r, ?_, hw, fun v => ?_⟩
      · simp only [idLoop, ne_eq, ha, not_false_eq_true, if_true, IDSet.Add]
        exact hr
      · rw [hm, GoMap.mem_keys_set]; simp only [List.mem_cons]
        constructor
        · rintro ((rfl | h) | h)
          · exact Or.inr ⟨Or.inl rfl, ha⟩
          · exact Or.inl h
          · exact Or.inr ⟨Or.inr h.1, h.2⟩
        · rintro (h | ⟨rfl | h, h'⟩)
          · exact Or.inl (Or.inr h)
          · exact Or.inl (Or.inl rfl)
          · exact Or.inr ⟨h, h'⟩

/-- `IDSet()` never panics and contains exactly the participants, whatever the order. -/
theorem IDSet_spec (ct : Ct C) {o : List String} (ho : ct.value.IsOrder o) :
    ∃ r, ct.IDSet o = .ok r ∧ GoMap.WF r ∧
      ∀ v, v ∈ GoMap.keys r ↔ v ∈ ct.value.keys ∧ v ≠ "0" := by
  obtain ⟨r, hr, hw, hm⟩ := idLoop_spec o IDSet.new GoMap.empty_wf
  refine ⟨r, hr, hw, fun v => ?_⟩
  rw [hm, ho.mem]; simp [IDSet.new]

theorem copyLoop_spec (el : Ct C) (o : List String) (ho : ∀ id ∈ o, id ∈ el.value.keys)
    (m : GoMap String (RQ C)) (hm : m.WF) :
    ∃ r, copyLoop el m o = .ok r ∧ r.WF ∧
      ∀ id, r.get? id = if id ∈ o then el.value.get? id else m.get? id := by
  induction o generalizing m with
  | nil => exact ⟨m, rfl, hm, by simp⟩
  | cons a o ih =>
    obtain ⟨p, hp⟩ := GoMap.exists_get?_of_mem (ho a (by simp))
    obtain ⟨r, hr, hw, hg⟩ := ih (fun id h => ho id (by simp [h])) (m.set a p) (hm.set a p)
    refine ⟨r, ?_, hw, fun id => ?_⟩
    · simp only [copyLoop, GoMap.deref, hp]; exact hr
    · rw [hg, GoMap.get?_set]
      by_cases h1 : id ∈ o
      · simp [h1]
      · by_cases h2 : id = a
        · subst h2; simp [h1, hp]
        · simp [h1, h2]

/-- `CopyNew` succeeds iff there is a `"0"` component; the copy has the same contents. -/
theorem CopyNew_spec (el : Ct C) (h0 : "0" ∈ el.value.keys) {o : List String}
    (ho : el.value.IsOrder o) :
    ∃ r, el.CopyNew o = .ok r ∧ r.value.WF ∧ ∀ id, r.value.get? id = el.value.get? id := by
  obtain ⟨p, hp⟩ := GoMap.exists_get?_of_mem h0
  obtain ⟨r, hr, hw, hg⟩ := copyLoop_spec el o (fun id h => ho.mem.mp h)
    (GoMap.empty.set "0" p) (GoMap.empty_wf.set _ _)
  refine ⟨⟨r⟩, ?_, hw, fun id => ?_⟩
  · unfold CopyNew
    rw [GoMap.deref_of_get? hp]
    simp only [Go.ok_bind, hr, Go.pure_eq]
  · rw [hg]
    by_cases h1 : id ∈ o
    · simp [h1]
    · have h2 : id ∉ el.value.keys := fun h => h1 (ho.mem.mpr h)
      have h3 : id ≠ "0" := fun h => h2 (h ▸ h0)
      simp [h1, GoMap.get?_set, h3, (GoMap.get?_eq_none_iff _ _).mpr h2]

theorem mem_keys_congr {a b : GoMap String (RQ C)} (h : ∀ id, a.get? id = b.get? id)
    (id : String) : id ∈ a.keys ↔ id ∈ b.keys := by
  rw [← GoMap.has_iff, ← GoMap.has_iff, GoMap.has, GoMap.has, h]

theorem padLoop_get? (oldIDs : MK.IDSet) (len : ℕ) (b : Bool) (o : List String)
    (m : GoMap String (RQ C)) (id : String) :
    (padLoop oldIDs len b m o).get? id =
      if id ∈ o ∧ oldIDs.Has id = false then
        some ({ RPoly.new len with isNTT := b } : RQ C) else m.get? id := by
  induction o generalizing m with
  | nil => simp [padLoop]
  | cons a o ih =>
    by_cases ha : oldIDs.Has a = true
    · simp only [padLoop, ha, if_true, ih, List.mem_cons]
      by_cases h2 : id = a
      · subst h2; simp [ha]
      · simp [h2]
    · rw [Bool.not_eq_true] at ha
      simp only [padLoop, ha, Bool.false_eq_true, if_false, ih, List.mem_cons, GoMap.get?_set]
      by_cases h2 : id = a
      · subst h2; simp [ha]
      · simp [h2]

theorem padLoop_wf (oldIDs : MK.IDSet) (len : ℕ) (b : Bool) (o : List String)
    (m : GoMap String (RQ C)) (h : m.WF) : (padLoop oldIDs len b m o).WF := by
  induction o generalizing m with
  | nil => exact h
  | cons a o ih =>
    unfold padLoop
    split
    · exact ih _ h
    · exact ih _ (h.set _ _)

end Ct

end MK
