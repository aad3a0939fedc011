import Verif.Heap
import Mathlib.Data.Set.Basic

/-!
# Relating the evaluator on pointers to the evaluator on values

`Sim h m f Q`: started in memory `h`, the pointer program `m` and the value program `f` either panic
in the same way, or both return, and the final memory and the two results satisfy `Q`.
-/

noncomputable section

namespace MK

open Mem

variable {C : Ctx} {α β γ σ τ : Type}

theorem GoMap.get?_of_mem_entries {K V : Type} [DecidableEq K] {m : GoMap K V} (hw : m.WF)
    {e : K × V} (he : e ∈ m.entries) : m.get? e.1 = some e.2 := by
  obtain ⟨l⟩ := m
  unfold GoMap.get?
  unfold GoMap.WF GoMap.keys at hw
  simp only at he hw ⊢
  induction l with
  | nil => simp at he
  | cons x l ih =>
    obtain ⟨a, b⟩ := x
    rw [List.map_cons, List.nodup_cons] at hw
    rcases List.mem_cons.mp he with rfl | he
    · simp
    · have hne : e.1 ≠ a := fun h => hw.1 (List.mem_map.mpr ⟨e, he, h⟩)
      have hb : (e.1 == a) = false := by simpa using hne
      simp only [List.lookup_cons, hb]
      exact ih hw.2 he

theorem GoMap.set_set {K V : Type} [DecidableEq K] (m : GoMap K V) (k : K) (x y : V) :
    (m.set k x).set k y = m.set k y := by
  have hh : (m.set k x).has k = true := by
    rw [GoMap.has_iff, GoMap.mem_keys_set]; exact Or.inl rfl
  have e : (m.set k x).set k y = ⟨(m.set k x).entries.map fun e => if e.1 = k then (k, y) else e⟩ := by
    conv_lhs => rw [GoMap.set, if_pos hh]
  rw [e]
  unfold GoMap.set
  split
  · simp only [List.map_map]
    congr 1
    refine List.map_congr_left fun e _ => ?_
    by_cases h1 : e.1 = k <;> simp [h1]
  · rename_i hk
    have hk : k ∉ m.keys := by rwa [← GoMap.has_iff]
    simp only [List.map_append, List.map_cons, List.map_nil, if_true]
    congr 2
    refine (List.map_congr_left fun e he => ?_).trans (List.map_id _)
    have : e.1 ≠ k := fun h => hk (List.mem_map.mpr ⟨e, he, h⟩)
    simp [this]

theorem GoMap.mapVals_set {K V W : Type} [DecidableEq K] (m : GoMap K V) (f : K → V → W) (k : K)
    (x : V) : (m.set k x).mapVals f = (m.mapVals f).set k (f k x) := by
  have hh : (m.mapVals f).has k = m.has k := by
    unfold GoMap.has; rw [GoMap.get?_mapVals]; cases m.get? k <;> rfl
  unfold GoMap.set
  rw [hh]
  split
  · unfold GoMap.mapVals
    simp only [List.map_map]
    congr 1
    refine List.map_congr_left fun e _ => ?_
    by_cases h1 : e.1 = k
    · subst h1; simp
    · simp [h1]
  · simp [GoMap.mapVals]

theorem GoMap.mapVals_congr {K V W : Type} [DecidableEq K] {m : GoMap K V} (hw : m.WF)
    {f g : K → V → W} (h : ∀ k v, m.get? k = some v → f k v = g k v) : m.mapVals f = m.mapVals g := by
  unfold GoMap.mapVals
  congr 1
  exact List.map_congr_left fun e he => by rw [h _ _ (GoMap.get?_of_mem_entries hw he)]

/-! ## What a pointer stands for -/

/-- The ciphertext value at address `a` (a `mkrlwe.Ciphertext`). -/
def Heap.viewCt (h : Heap C) (a : ℕ) : Ct C := ⟨(h.ct a).mapVals fun _ p => h.poly p⟩

/-- The ciphertext value at address `x` (a `mkckks.Ciphertext`). -/
def Heap.view (h : Heap C) (x : ℕ) : CCt C := ⟨h.viewCt (h.cct x).1, (h.cct x).2⟩

/-- The evaluator as a value. -/
def Heap.viewEv (h : Heap C) (ev : HEv C) : Ev C := ⟨ev.ksw, h.viewCt ev.pool, h.poly ev.polyQ⟩

/-- The addresses of the components of `a`. -/
def Heap.polys (h : Heap C) (a : ℕ) : Set ℕ := {p | ∃ id, (h.ct a).get? id = some p}

@[simp] theorem Heap.viewCt_keys (h : Heap C) (a : ℕ) : (h.viewCt a).value.keys = (h.ct a).keys :=
  GoMap.keys_mapVals _ _

theorem Heap.viewCt_get? (h : Heap C) (a : ℕ) (id : String) :
    (h.viewCt a).value.get? id = ((h.ct a).get? id).map h.poly := GoMap.get?_mapVals _ _ _

/-- An object of the memory: allocated, with allocated components. -/
structure Heap.Valid (h : Heap C) (a : ℕ) : Prop where
  lt : a < h.next
  wf : (h.ct a).WF
  polys : ∀ p ∈ h.polys a, p < h.next

/-- No two components of `a` are the same polynomial. -/
def Heap.Own (h : Heap C) (a : ℕ) : Prop :=
  (h.ct a).WF ∧ ∀ id id' p, (h.ct a).get? id = some p → (h.ct a).get? id' = some p → id = id'

/-! ## What a computation leaves alone -/

/-- Objects allocated before are unchanged outside the sets: `A` of `mkrlwe.Ciphertext`s, `B` of
`mkckks.Ciphertext`s, `S` of polynomials. -/
structure Fr (A B S : Set ℕ) (h h' : Heap C) : Prop where
  next : h.next ≤ h'.next
  ct : ∀ a < h.next, a ∉ A → h'.ct a = h.ct a
  cct : ∀ a < h.next, a ∉ B → h'.cct a = h.cct a
  poly : ∀ a < h.next, a ∉ S → h'.poly a = h.poly a

/-- Only scales of `B` and contents of polynomials of `S` change. -/
structure Wr (B S : Set ℕ) (h h' : Heap C) : Prop where
  next : h'.next = h.next
  ct : h'.ct = h.ct
  cct : ∀ a, a ∉ B → h'.cct a = h.cct a
  cct1 : ∀ a, (h'.cct a).1 = (h.cct a).1
  poly : ∀ a, a ∉ S → h'.poly a = h.poly a

theorem Wr.refl (B S : Set ℕ) (h : Heap C) : Wr B S h h := ⟨rfl, rfl, fun _ _ => rfl, fun _ => rfl, fun _ _ => rfl⟩

theorem Wr.trans {B S : Set ℕ} {h h' h'' : Heap C} (w : Wr B S h h') (w' : Wr B S h' h'') :
    Wr B S h h'' :=
  ⟨w'.next.trans w.next, w'.ct.trans w.ct, fun a ha => (w'.cct a ha).trans (w.cct a ha),
    fun a => (w'.cct1 a).trans (w.cct1 a), fun a ha => (w'.poly a ha).trans (w.poly a ha)⟩

theorem Wr.mono {B B' S S' : Set ℕ} {h h' : Heap C} (w : Wr B S h h') (hB : B ⊆ B') (hS : S ⊆ S') :
    Wr B' S' h h' :=
  ⟨w.next, w.ct, fun a ha => w.cct a fun h => ha (hB h), w.cct1,
    fun a ha => w.poly a fun h => ha (hS h)⟩

theorem Wr.fr {B S : Set ℕ} {h h' : Heap C} (w : Wr B S h h') : Fr ∅ B S h h' :=
  ⟨w.next.ge, fun a _ _ => by rw [w.ct], fun a _ ha => w.cct a ha, fun a _ ha => w.poly a ha⟩

theorem Fr.refl (A B S : Set ℕ) (h : Heap C) : Fr A B S h h :=
  ⟨le_refl _, fun _ _ _ => rfl, fun _ _ _ => rfl, fun _ _ _ => rfl⟩

/-- The later sets may contain addresses that were free at the beginning. -/
theorem Fr.trans {A B S A' B' S' : Set ℕ} {h h' h'' : Heap C} (w : Fr A B S h h')
    (w' : Fr A' B' S' h' h'') (hA : ∀ a < h.next, a ∈ A' → a ∈ A)
    (hB : ∀ a < h.next, a ∈ B' → a ∈ B) (hS : ∀ a < h.next, a ∈ S' → a ∈ S) : Fr A B S h h'' :=
  ⟨w.next.trans w'.next,
    fun a hl ha => (w'.ct a (hl.trans_le w.next) fun h => ha (hA a hl h)).trans (w.ct a hl ha),
    fun a hl ha => (w'.cct a (hl.trans_le w.next) fun h => ha (hB a hl h)).trans (w.cct a hl ha),
    fun a hl ha => (w'.poly a (hl.trans_le w.next) fun h => ha (hS a hl h)).trans (w.poly a hl ha)⟩

theorem Fr.mono {A B S A' B' S' : Set ℕ} {h h' : Heap C} (w : Fr A B S h h') (hA : A ⊆ A')
    (hB : B ⊆ B') (hS : S ⊆ S') : Fr A' B' S' h h' :=
  ⟨w.next, fun a hl ha => w.ct a hl fun h => ha (hA h), fun a hl ha => w.cct a hl fun h => ha (hB h),
    fun a hl ha => w.poly a hl fun h => ha (hS h)⟩

theorem viewCt_congr {h h' : Heap C} {a : ℕ} (hc : h'.ct a = h.ct a)
    (hp : ∀ p ∈ h.polys a, h'.poly p = h.poly p) (hw : (h.ct a).WF) : h'.viewCt a = h.viewCt a := by
  unfold Heap.viewCt
  rw [hc]
  congr 1
  exact GoMap.mapVals_congr hw fun id p h => hp p ⟨id, h⟩

theorem polys_congr {h h' : Heap C} {a : ℕ} (hc : h'.ct a = h.ct a) : h'.polys a = h.polys a := by
  unfold Heap.polys; rw [hc]

theorem Wr.polys {B S : Set ℕ} {h h' : Heap C} (w : Wr B S h h') (a : ℕ) : h'.polys a = h.polys a :=
  polys_congr (by rw [w.ct])

theorem Wr.own {B S : Set ℕ} {h h' : Heap C} (w : Wr B S h h') {a : ℕ} (ho : h.Own a) : h'.Own a := by
  unfold Heap.Own; rw [w.ct]; exact ho

theorem Wr.valid {B S : Set ℕ} {h h' : Heap C} (w : Wr B S h h') {a : ℕ} (ho : h.Valid a) :
    h'.Valid a :=
  ⟨by rw [w.next]; exact ho.lt, by rw [w.ct]; exact ho.wf, fun p hp => by
    rw [w.next]; rw [w.polys] at hp; exact ho.polys p hp⟩

theorem Wr.viewCt {B S : Set ℕ} {h h' : Heap C} (w : Wr B S h h') {a : ℕ} (hw : (h.ct a).WF)
    (hd : Disjoint (h.polys a) S) : h'.viewCt a = h.viewCt a :=
  viewCt_congr (by rw [w.ct]) (fun p hp => w.poly p (Set.disjoint_left.mp hd hp)) hw

theorem Fr.ct_eq {A B S : Set ℕ} {h h' : Heap C} (w : Fr A B S h h') {a : ℕ} (hv : h.Valid a)
    (ha : a ∉ A) : h'.ct a = h.ct a := w.ct a hv.lt ha

theorem Fr.polys {A B S : Set ℕ} {h h' : Heap C} (w : Fr A B S h h') {a : ℕ} (hv : h.Valid a)
    (ha : a ∉ A) : h'.polys a = h.polys a := polys_congr (w.ct_eq hv ha)

theorem Fr.valid {A B S : Set ℕ} {h h' : Heap C} (w : Fr A B S h h') {a : ℕ} (hv : h.Valid a)
    (ha : a ∉ A) : h'.Valid a :=
  ⟨hv.lt.trans_le w.next, by rw [w.ct_eq hv ha]; exact hv.wf, fun p hp => by
    rw [w.polys hv ha] at hp; exact (hv.polys p hp).trans_le w.next⟩

theorem Fr.own {A B S : Set ℕ} {h h' : Heap C} (w : Fr A B S h h') {a : ℕ} (hv : h.Valid a)
    (ha : a ∉ A) (ho : h.Own a) : h'.Own a := by
  unfold Heap.Own; rw [w.ct_eq hv ha]; exact ho

theorem Fr.viewCt {A B S : Set ℕ} {h h' : Heap C} (w : Fr A B S h h') {a : ℕ} (hv : h.Valid a)
    (ha : a ∉ A) (hd : Disjoint (h.polys a) S) : h'.viewCt a = h.viewCt a :=
  viewCt_congr (w.ct_eq hv ha)
    (fun p hp => w.poly p (hv.polys p hp) (Set.disjoint_left.mp hd hp)) hv.wf

/-! ## Writing through a pointer -/

theorem viewCt_update {h : Heap C} {a : ℕ} (ho : h.Own a) {id : String} {p : ℕ}
    (hp : (h.ct a).get? id = some p) (v : RQ C) :
    ({ h with poly := Function.update h.poly p v } : Heap C).viewCt a =
      ⟨(h.viewCt a).value.set id v⟩ := by
  have hk : id ∈ (h.ct a).keys := GoMap.mem_keys_of_get? hp
  have hh : (h.viewCt a).value.has id = true := by
    rw [GoMap.has_iff]; simpa using hk
  unfold Heap.viewCt at hh ⊢
  congr 1
  unfold GoMap.set
  rw [if_pos hh]
  unfold GoMap.mapVals
  simp only [List.map_map]
  congr 1
  refine List.map_congr_left fun e he => ?_
  have hg := GoMap.get?_of_mem_entries ho.1 he
  by_cases h1 : e.1 = id
  · have : e.2 = p := by rw [h1, hp] at hg; exact (Option.some.inj hg).symm
    simp [h1, this]
  · have : e.2 ≠ p := fun h2 => h1 (ho.2 _ _ _ (h2 ▸ hg) hp)
    simp [h1, Function.update_of_ne this]

/-! ## The relation -/

/-- See the head of the file. -/
def Sim (h : Heap C) (m : HM C α) (f : Go β) (Q : Heap C → α → β → Prop) : Prop :=
  match m h, f with
  | .ok r, .ok b => Q r.2 r.1 b
  | .error p, .error p' => p = p'
  | _, _ => False

namespace Sim

variable {h : Heap C} {m : HM C α} {f : Go β} {Q : Heap C → α → β → Prop}

theorem pure {a : α} {b : β} (hq : Q h a b) : Sim h (Pure.pure a) (.ok b) Q := hq

theorem error {p : Panic} : Sim h (lift (.error p) : HM C α) (.error p : Go β) Q := rfl

theorem mono {R : Heap C → α → β → Prop} (hs : Sim h m f Q) (hq : ∀ h' a b, Q h' a b → R h' a b) :
    Sim h m f R := by
  unfold Sim at *
  cases hm : m h <;> cases f <;> simp_all

theorem bind {k : α → HM C γ} {δ : Type} {k' : β → Go δ} {R : Heap C → γ → δ → Prop}
    (hs : Sim h m f Q) (hk : ∀ h' a b, Q h' a b → Sim h' (k a) (k' b) R) :
    Sim h (m >>= k) (f >>= k') R := by
  unfold Sim at hs
  have e : (m >>= k) h = (m h >>= fun r => k r.1 r.2) := rfl
  cases hm : m h with
  | error p =>
    cases f with
    | error p' =>
      rw [hm] at hs
      unfold Sim
      rw [e, hm]
      exact hs
    | ok b => rw [hm] at hs; exact hs.elim
  | ok r =>
    cases f with
    | error p' => rw [hm] at hs; exact hs.elim
    | ok b =>
      rw [hm] at hs
      have := hk r.2 r.1 b hs
      unfold Sim at this ⊢
      rw [e, hm]
      exact this

theorem forEach {ι : Type} {R : Heap C → σ → τ → Prop} (o : List ι) {body : ι → σ → HM C σ}
    {body' : ι → τ → Go τ}
    (step : ∀ a ∈ o, ∀ h s t, R h s t → Sim h (body a s) (body' a t) R) :
    ∀ {h : Heap C} {s : σ} {t : τ}, R h s t →
      Sim h (Mem.forEach o body s) (MK.forEach o body' t) R := by
  induction o with
  | nil => intro h s t hr; exact hr
  | cons a o ih =>
    intro h s t hr
    exact bind (step a (by simp) h s t hr) fun h' s' t' hr' =>
      ih (fun b hb => step b (by simp [hb])) hr'

theorem forN {R : Heap C → σ → τ → Prop} (n : ℕ) {body : ℕ → σ → HM C σ} {body' : ℕ → τ → Go τ}
    (step : ∀ i < n, ∀ h s t, R h s t → Sim h (body i s) (body' i t) R)
    {h : Heap C} {s : σ} {t : τ} (hr : R h s t) :
      Sim h (Mem.forN n body s) (MK.forN n body' t) R := by
  induction n with
  | zero => exact hr
  | succ n ih =>
    exact bind (ih fun i hi => step i (by omega)) fun h' s' t' hr' => step n (by omega) _ _ _ hr'

/-! Rules for the primitives, in continuation form. -/

theorem lift_bind {x : Go α} {k : α → HM C γ} {δ : Type} {k' : α → Go δ} {R : Heap C → γ → δ → Prop}
    (hk : ∀ v, x = .ok v → Sim h (k v) (k' v) R) : Sim h (lift x >>= k) (x >>= k') R := by
  cases x with
  | error p => exact (rfl : p = p)
  | ok v => exact hk v rfl

section

variable {k : γ → HM C α}

theorem keysOf_bind {a : ℕ} {k : List String → HM C α} (hk : Sim h (k (h.ct a).keys) f Q) :
    Sim h (keysOf a >>= k) f Q := hk

theorem ctOf_bind {x : ℕ} {k : ℕ → HM C α} (hk : Sim h (k (h.cct x).1) f Q) :
    Sim h (ctOf x >>= k) f Q := hk

theorem scaleOf_bind {x : ℕ} {k : ℚ → HM C α} (hk : Sim h (k (h.cct x).2) f Q) :
    Sim h (scaleOf x >>= k) f Q := hk

theorem setScale_bind {x : ℕ} {s : ℚ} {k : Unit → HM C α}
    (hk : Sim { h with cct := Function.update h.cct x ((h.cct x).1, s) } (k ()) f Q) :
    Sim h (setScale x s >>= k) f Q := hk

theorem setScale_end {x : ℕ} {s : ℚ} {b : β} {Q : Heap C → Unit → β → Prop}
    (hk : Q { h with cct := Function.update h.cct x ((h.cct x).1, s) } () b) :
    Sim h (setScale x s) (.ok b) Q := hk

theorem readPoly_bind {p : ℕ} {k : RQ C → HM C α} (hk : Sim h (k (h.poly p)) f Q) :
    Sim h (readPoly p >>= k) f Q := hk

theorem writePoly_bind {p : ℕ} {v : RQ C} {k : Unit → HM C α}
    (hk : Sim { h with poly := Function.update h.poly p v } (k ()) f Q) :
    Sim h (writePoly p v >>= k) f Q := hk

theorem newCCt_bind {a : ℕ} {s : ℚ} {k : ℕ → HM C α}
    (hk : Sim { h with cct := Function.update h.cct h.next (a, s), next := h.next + 1 }
      (k h.next) f Q) : Sim h (newCCt a s >>= k) f Q := hk

theorem newCCt_end {a : ℕ} {s : ℚ} {b : β} {Q : Heap C → ℕ → β → Prop}
    (hk : Q { h with cct := Function.update h.cct h.next (a, s), next := h.next + 1 } h.next b) :
    Sim h (newCCt a s) (.ok b) Q := hk

end

/-- Reading a component. -/
theorem load_bind {a : ℕ} {c : Ct C} (hc : h.viewCt a = c) {id : String} {k : RQ C → HM C γ}
    {δ : Type} {k' : RQ C → Go δ} {R : Heap C → γ → δ → Prop}
    (hk : ∀ v, c.value.get? id = some v → Sim h (k v) (k' v) R) :
    Sim h (load a id >>= k) (c.value.deref id >>= k') R := by
  subst hc
  have hg := h.viewCt_get? a id
  cases hp : (h.ct a).get? id with
  | none =>
    rw [hp] at hg
    unfold GoMap.deref
    rw [hg]
    have e : (load a id >>= k) h = .error .nilDeref := by
      show (load a id h >>= fun r => k r.1 r.2) = _
      unfold load; rw [hp]; rfl
    unfold Sim; rw [e]; exact (rfl : Panic.nilDeref = Panic.nilDeref)
  | some p =>
    rw [hp] at hg
    unfold GoMap.deref
    rw [hg]
    have e : (load a id >>= k) h = k (h.poly p) h := by
      show (load a id h >>= fun r => k r.1 r.2) = _
      unfold load; rw [hp]; rfl
    have := hk (h.poly p) (by rw [hg]; rfl)
    unfold Sim at this ⊢; rw [e]; exact this

/-- Reading a component whose value is known. -/
theorem load_val {a : ℕ} {c : Ct C} (hc : h.viewCt a = c) {id : String} {v : RQ C}
    (hg : c.value.get? id = some v) {k : RQ C → HM C γ} {δ : Type} {f : Go δ}
    {R : Heap C → γ → δ → Prop} (hk : Sim h (k v) f R) : Sim h (load a id >>= k) f R := by
  have := load_bind (k := k) (k' := fun _ => f) (R := R) hc (id := id) fun w hw => by
    rw [hg] at hw; cases hw; exact hk
  rw [GoMap.deref_of_get? hg] at this
  exact this

theorem level_bind {a : ℕ} {c : Ct C} (hc : h.viewCt a = c) {k : ℕ → HM C γ}
    {δ : Type} {k' : ℕ → Go δ} {R : Heap C → γ → δ → Prop}
    (hk : ∀ l, c.Level = .ok l → Sim h (k l) (k' l) R) :
    Sim h (level a >>= k) (c.Level >>= k') R := by
  unfold level Ct.Level
  rw [bind_assoc, bind_assoc]
  refine load_bind hc fun v hv => ?_
  simp only [pure_bind]
  refine hk _ ?_
  unfold Ct.Level
  rw [GoMap.deref_of_get? hv]; rfl

/-- Writing a component of an object none of whose components coincide. -/
theorem store_bind {a : ℕ} {c : Ct C} (hc : h.viewCt a = c) (ho : h.Own a) {id : String} {v w : RQ C}
    (hw : c.value.get? id = some w) {k : Unit → HM C γ} {δ : Type} {f : Go δ}
    {R : Heap C → γ → δ → Prop}
    (hk : ∀ h', h'.viewCt a = ⟨c.value.set id v⟩ → Wr ∅ (h.polys a) h h' → Sim h' (k ()) f R) :
    Sim h (store a id v >>= k) f R := by
  subst hc
  have hg := h.viewCt_get? a id
  rw [hw] at hg
  cases hp : (h.ct a).get? id with
  | none => rw [hp] at hg; cases hg
  | some p =>
    have e : (store a id v >>= k) h = k () { h with poly := Function.update h.poly p v } := by
      show (store a id v h >>= fun r => k r.1 r.2) = _
      unfold store; rw [hp]; rfl
    have := hk { h with poly := Function.update h.poly p v } (viewCt_update ho hp v)
      ⟨rfl, rfl, fun _ _ => rfl, fun _ => rfl, fun a ha => Function.update_of_ne (fun he => ha (by
        rw [he]; exact ⟨id, hp⟩)) _ _⟩
    unfold Sim at this ⊢; rw [e]; exact this

theorem store_end {a : ℕ} {c : Ct C} (hc : h.viewCt a = c) (ho : h.Own a) {id : String} {v w : RQ C}
    (hw : c.value.get? id = some w) {b : β} {Q : Heap C → Unit → β → Prop}
    (hk : ∀ h', h'.viewCt a = ⟨c.value.set id v⟩ → Wr ∅ (h.polys a) h h' → Q h' () b) :
    Sim h (store a id v) (.ok b) Q := by
  have := store_bind (v := v) hc ho hw (k := fun _ => Pure.pure ()) (f := .ok b) (R := Q)
    fun h' h1 h2 => hk h' h1 h2
  rwa [show (store a id v >>= fun _ => Pure.pure ()) = store a id v from bind_pure_unit] at this

end Sim

/-! ## Allocation -/

theorem addPoly_spec {h : Heap C} {a : ℕ} (hv : h.Valid a) (ho : h.Own a) (id : String) (v : RQ C) :
    ∃ h', addPoly a id v h = .ok ((), h') ∧ h'.viewCt a = ⟨(h.viewCt a).value.set id v⟩ ∧
      h'.Valid a ∧ h'.Own a ∧ Fr {a} ∅ ∅ h h' ∧ h'.polys a ⊆ h.polys a ∪ {p | h.next ≤ p} := by
  have hg : ∀ id' p, ((h.ct a).set id h.next).get? id' = some p →
      (id' = id ∧ p = h.next) ∨ (id' ≠ id ∧ (h.ct a).get? id' = some p) := by
    intro id' p hp
    rw [GoMap.get?_set] at hp
    by_cases h1 : id' = id
    · rw [if_pos h1] at hp; exact Or.inl ⟨h1, (Option.some.inj hp).symm⟩
    · rw [if_neg h1] at hp; exact Or.inr ⟨h1, hp⟩
  have hlt : ∀ id' p, (h.ct a).get? id' = some p → p < h.next := fun id' p hp => hv.polys p ⟨id', hp⟩
  refine ⟨_, rfl, ?_, ⟨?_, ?_, ?_⟩, ⟨?_, ?_⟩, ⟨?_, ?_, ?_, ?_⟩, ?_⟩
  · unfold Heap.viewCt
    simp only [Function.update_self]
    rw [GoMap.mapVals_set, Function.update_self]
    congr 2
    exact GoMap.mapVals_congr hv.wf fun id' p hp => Function.update_of_ne (hlt _ _ hp).ne _ _
  · exact hv.lt.trans (Nat.lt_succ_self _)
  · simp only [Function.update_self]; exact hv.wf.set _ _
  · rintro p ⟨id', hp⟩
    simp only [Function.update_self] at hp
    rcases hg _ _ hp with ⟨_, rfl⟩ | ⟨_, hp⟩
    · exact Nat.lt_succ_self _
    · exact (hlt _ _ hp).trans (Nat.lt_succ_self _)
  · simp only [Function.update_self]; exact hv.wf.set _ _
  · intro i1 i2 p h1 h2
    simp only [Function.update_self] at h1 h2
    rcases hg _ _ h1 with ⟨e1, rfl⟩ | ⟨e1, h1⟩
    · rcases hg _ _ h2 with ⟨e2, _⟩ | ⟨e2, h2⟩
      · rw [e1, e2]
      · exact absurd (hlt _ _ h2) (lt_irrefl _)
    · rcases hg _ _ h2 with ⟨e2, rfl⟩ | ⟨e2, h2⟩
      · exact absurd (hlt _ _ h1) (lt_irrefl _)
      · exact ho.2 _ _ _ h1 h2
  · exact Nat.le_succ _
  · intro b _ hb; exact Function.update_of_ne (by simpa using hb) _ _
  · intro b _ _; rfl
  · intro p hp _; exact Function.update_of_ne hp.ne _ _
  · rintro p ⟨id', hp⟩
    simp only [Function.update_self] at hp
    rcases hg _ _ hp with ⟨_, rfl⟩ | ⟨_, hp⟩
    · exact Or.inr (le_refl h.next)
    · exact Or.inl ⟨id', hp⟩

/-- What a loop that only adds components to `a` guarantees. -/
structure Grow (a : ℕ) (h0 h : Heap C) : Prop where
  valid : h.Valid a
  own : h.Own a
  fr : Fr {a} ∅ ∅ h0 h
  polys : h.polys a ⊆ h0.polys a ∪ {p | h0.next ≤ p}

theorem Grow.refl {a : ℕ} {h : Heap C} (hv : h.Valid a) (ho : h.Own a) : Grow a h h :=
  ⟨hv, ho, Fr.refl _ _ _ h, Set.subset_union_left⟩

theorem Grow.trans {a : ℕ} {h h' h'' : Heap C} (g : Grow a h h') (g' : Grow a h' h'') :
    Grow a h h'' := by
  refine ⟨g'.valid, g'.own, g.fr.trans g'.fr (fun _ _ h => h) (fun _ _ h => h) (fun _ _ h => h), ?_⟩
  intro p hp
  rcases g'.polys hp with hp | hp
  · exact g.polys hp
  · exact Or.inr (g.fr.next.trans hp)

/-- Adding a component, in continuation form. -/
theorem Sim.addPoly_end {h : Heap C} {a : ℕ} {c : Ct C} (hc : h.viewCt a = c) (hv : h.Valid a)
    (ho : h.Own a) {id : String} {v : RQ C} {b : β} {Q : Heap C → Unit → β → Prop}
    (hk : ∀ h', h'.viewCt a = ⟨c.value.set id v⟩ → Grow a h h' → Q h' () b) :
    Sim h (addPoly a id v) (.ok b) Q := by
  subst hc
  obtain ⟨h', e, h1, h2, h3, h4, h5⟩ := addPoly_spec hv ho id v
  have := hk h' h1 ⟨h2, h3, h4, h5⟩
  unfold Sim; rw [e]; exact this

theorem Sim.addPoly_bind {h : Heap C} {a : ℕ} {c : Ct C} (hc : h.viewCt a = c) (hv : h.Valid a)
    (ho : h.Own a) {id : String} {v : RQ C} {k : Unit → HM C γ} {f : Go β} {Q : Heap C → γ → β → Prop}
    (hk : ∀ h', h'.viewCt a = ⟨c.value.set id v⟩ → Grow a h h' → Sim h' (k ()) f Q) :
    Sim h (addPoly a id v >>= k) f Q := by
  subst hc
  obtain ⟨h', e, h1, h2, h3, h4, h5⟩ := addPoly_spec hv ho id v
  have := hk h' h1 ⟨h2, h3, h4, h5⟩
  unfold Sim at this ⊢
  rw [show (addPoly a id v >>= k) h = (addPoly a id v h >>= fun r => k r.1 r.2) from rfl, e]
  exact this

theorem Sim.newCt_bind {h : Heap C} {k : ℕ → HM C γ} {f : Go β} {Q : Heap C → γ → β → Prop}
    (hk : ∀ h', h'.viewCt h.next = ⟨GoMap.empty⟩ → h'.Valid h.next → h'.Own h.next →
      h'.polys h.next = ∅ → Fr ∅ ∅ ∅ h h' → Sim h' (k h.next) f Q) :
    Sim h (newCt >>= k) f Q := by
  refine hk { h with ct := Function.update h.ct h.next GoMap.empty, next := h.next + 1 }
    ?_ ⟨?_, ?_, ?_⟩ ⟨?_, ?_⟩ ?_ ⟨?_, ?_, ?_, ?_⟩
  · simp [Heap.viewCt, GoMap.mapVals, GoMap.empty]
  · exact Nat.lt_succ_self _
  · simp only [Function.update_self]; exact GoMap.empty_wf
  · rintro p ⟨id, hp⟩; simp [Function.update_self] at hp
  · simp only [Function.update_self]; exact GoMap.empty_wf
  · intro i1 i2 p hp; simp [Function.update_self] at hp
  · ext p; simp [Heap.polys]
  · exact Nat.le_succ _
  · intro a ha _; exact Function.update_of_ne ha.ne _ _
  · intro _ _ _; rfl
  · intro _ _ _; rfl

/-- A new `mkrlwe.Ciphertext` at `a` with contents `c`. -/
structure NewCt (h h' : Heap C) (a : ℕ) (c : Ct C) : Prop where
  view : h'.viewCt a = c
  fresh : h.next ≤ a
  valid : h'.Valid a
  own : h'.Own a
  polys : ∀ p ∈ h'.polys a, h.next ≤ p
  fr : Fr ∅ ∅ ∅ h h'

/-- `NewCiphertext` on pointers. -/
theorem newCiphertext_sim (h : Heap C) (level : ℕ) (o : List String) :
    Sim h (newCiphertext level o) (.ok (Ct.new level o)) fun h' a c => NewCt h h' a c := by
  unfold newCiphertext
  refine Sim.newCt_bind fun h1 v1 va1 o1 p1 f1 => ?_
  refine Sim.addPoly_bind v1 va1 o1 fun h2 v2 g2 => ?_
  have key : ∀ (o : List String) (m : GoMap String (RQ C)) (h3 : Heap C),
      h3.viewCt h.next = ⟨m⟩ → Grow h.next h1 h3 →
      Sim h3 (Mem.forEach o (fun id (_ : Unit) => addPoly h.next id (RPoly.new (level + 1))) ())
        (.ok (⟨Ct.allocLoop level m o⟩ : Ct C))
        fun h4 _ c => h4.viewCt h.next = c ∧ Grow h.next h1 h4 := by
    intro o
    induction o with
    | nil => intro m h3 hv hg; exact ⟨hv, hg⟩
    | cons id o ih =>
      intro m h3 hv hg
      exact Sim.addPoly_bind hv hg.valid hg.own fun h4 v4 g4 => ih _ h4 v4 (hg.trans g4)
  refine Sim.bind (k' := fun c => .ok c) (key o _ h2 v2 g2) ?_
  rintro h4 _ c ⟨v4, g4⟩
  refine Sim.pure ⟨v4, le_refl _, g4.valid, g4.own, ?_, ?_⟩
  · intro p hp
    rcases g4.polys hp with hp | hp
    · rw [p1] at hp; exact hp.elim
    · exact f1.next.trans hp
  · exact f1.trans g4.fr (fun a ha hm => absurd hm ha.ne) (fun _ _ h => h) (fun _ _ h => h)

/-- `CopyNew` (mkrlwe) on pointers. -/
theorem copyNew_sim {h : Heap C} {a : ℕ} (hv : h.Valid a) (o : List String) :
    Sim h (copyNew a o) ((h.viewCt a).CopyNew o) fun h' b c => NewCt h h' b c := by
  unfold copyNew Ct.CopyNew
  refine Sim.newCt_bind fun h1 v1 va1 o1 p1 f1 => ?_
  have view : ∀ h2, Grow h.next h1 h2 → h2.viewCt a = h.viewCt a := by
    intro h2 g
    have f2 : Fr ∅ ∅ ∅ h h2 :=
      f1.trans g.fr (fun a ha hm => absurd hm ha.ne) (fun _ _ h => h) (fun _ _ h => h)
    exact f2.viewCt hv (by simp) (by simp)
  refine Sim.load_bind (view h1 (Grow.refl va1 o1)) fun v hv' => ?_
  refine Sim.addPoly_bind v1 va1 o1 fun h2 v2 g2 => ?_
  have key : ∀ (o : List String) (m : GoMap String (RQ C)) (h3 : Heap C),
      h3.viewCt h.next = ⟨m⟩ → Grow h.next h1 h3 →
      Sim h3 (Mem.forEach o (fun id (_ : Unit) => do
        let p ← load a id
        addPoly h.next id p) ())
        (Ct.copyLoop (h.viewCt a) m o)
        fun h4 _ m' => h4.viewCt h.next = ⟨m'⟩ ∧ Grow h.next h1 h4 := by
    intro o
    induction o with
    | nil => intro m h3 hv hg; exact ⟨hv, hg⟩
    | cons id o ih =>
      intro m h3 hv hg
      unfold Mem.forEach Ct.copyLoop
      rw [bind_assoc]
      refine Sim.load_bind (view h3 hg) fun p _ => ?_
      exact Sim.addPoly_bind hv hg.valid hg.own fun h4 v4 g4 => ih _ h4 v4 (hg.trans g4)
  refine Sim.bind (key o _ h2 v2 g2) ?_
  rintro h4 _ c ⟨v4, g4⟩
  refine Sim.pure ⟨v4, le_refl _, g4.valid, g4.own, ?_, ?_⟩
  · intro p hp
    rcases g4.polys hp with hp | hp
    · rw [p1] at hp; exact hp.elim
    · exact f1.next.trans hp
  · exact f1.trans g4.fr (fun a ha hm => absurd hm ha.ne) (fun _ _ h => h) (fun _ _ h => h)

/-- `PadCiphertext` on pointers. -/
theorem padCiphertext_sim {h : Heap C} {a : ℕ} (hv : h.Valid a) (ho : h.Own a) (oEl o : List String) :
    Sim h (padCiphertext a oEl o) ((h.viewCt a).PadCiphertext oEl o)
      fun h' _ c => h'.viewCt a = c ∧ Grow a h h' := by
  unfold padCiphertext Ct.PadCiphertext
  refine Sim.load_bind rfl fun v hv' => ?_
  unfold idSet Ct.IDSet
  refine Sim.lift_bind fun old _ => ?_
  refine Sim.level_bind rfl fun l _ => ?_
  have key : ∀ (o : List String) (m : GoMap String (RQ C)) (h3 : Heap C),
      h3.viewCt a = ⟨m⟩ → Grow a h h3 →
      Sim h3 (Mem.forEach o (fun id (_ : Unit) =>
        if old.Has id then pure ()
        else addPoly a id { RPoly.new (l + 1) with isNTT := v.isNTT }) ())
        (.ok (⟨Ct.padLoop old (l + 1) v.isNTT m o⟩ : Ct C))
        fun h4 _ c => h4.viewCt a = c ∧ Grow a h h4 := by
    intro o
    induction o with
    | nil => intro m h3 hv hg; exact ⟨hv, hg⟩
    | cons id o ih =>
      intro m h3 hv hg
      unfold Mem.forEach Ct.padLoop
      split
      · exact ih _ h3 hv hg
      · exact Sim.addPoly_bind hv hg.valid hg.own fun h4 v4 g4 => ih _ h4 v4 (hg.trans g4)
  exact key o _ h rfl (Grow.refl hv ho)

/-! ## Loops that write the components of one object -/

/-- Since `h0` only components of `b` have been written, and `b` now holds `c`. -/
def Upd (b : ℕ) (h0 h : Heap C) (c : Ct C) : Prop := h.viewCt b = c ∧ Wr ∅ (h0.polys b) h0 h

/-- `a` can be read while the components of `b` are being written. -/
def Rd (b : ℕ) (h0 : Heap C) (a : ℕ) : Prop := (h0.ct a).WF ∧ Disjoint (h0.polys a) (h0.polys b)

theorem Upd.refl (b : ℕ) (h : Heap C) : Upd b h h (h.viewCt b) := ⟨rfl, Wr.refl _ _ _⟩

theorem Upd.read {b : ℕ} {h0 h : Heap C} {c : Ct C} (hu : Upd b h0 h c) {a : ℕ} (ha : Rd b h0 a) :
    h.viewCt a = h0.viewCt a := hu.2.viewCt ha.1 ha.2

theorem Upd.step {b : ℕ} {h0 h h' : Heap C} {c c' : Ct C} (hu : Upd b h0 h c)
    (hv : h'.viewCt b = c') (hw : Wr ∅ (h.polys b) h h') : Upd b h0 h' c' :=
  ⟨hv, hu.2.trans (by rwa [hu.2.polys] at hw)⟩

theorem Upd.trans {b : ℕ} {h0 h h' : Heap C} {c c' : Ct C} (hu : Upd b h0 h c) (hu' : Upd b h h' c') :
    Upd b h0 h' c' := hu.step hu'.1 hu'.2

theorem Sim.store_upd {b : ℕ} {h0 h : Heap C} {c : Ct C} (hu : Upd b h0 h c) (ho : h0.Own b)
    {id : String} {v w : RQ C} (hw : c.value.get? id = some w) {k : Unit → HM C γ} {f : Go β}
    {R : Heap C → γ → β → Prop}
    (hk : ∀ h', Upd b h0 h' ⟨c.value.set id v⟩ → Sim h' (k ()) f R) :
    Sim h (store b id v >>= k) f R :=
  Sim.store_bind hu.1 (hu.2.own ho) hw fun h' h1 h2 => hk h' (hu.step h1 h2)

theorem Sim.store_upd_end {b : ℕ} {h0 h : Heap C} {c : Ct C} (hu : Upd b h0 h c) (ho : h0.Own b)
    {id : String} {v w : RQ C} (hw : c.value.get? id = some w) {r : β} {Q : Heap C → Unit → β → Prop}
    (hk : ∀ h', Upd b h0 h' ⟨c.value.set id v⟩ → Q h' () r) :
    Sim h (store b id v) (.ok r) Q :=
  Sim.store_end hu.1 (hu.2.own ho) hw fun h' h1 h2 => hk h' (hu.step h1 h2)

/-- The relation of loops whose value-level state is the ciphertext being written. -/
abbrev RelU (b : ℕ) (h0 : Heap C) : Heap C → Unit → Ct C → Prop := fun h _ c => Upd b h0 h c

/-- The relation of loops whose value-level state is scratch and the ciphertext being written. -/
abbrev RelS (b : ℕ) (h0 : Heap C) : Heap C → σ → σ × Ct C → Prop :=
  fun h s t => s = t.1 ∧ Upd b h0 h t.2

/-- `Copy` on pointers. -/
theorem copyInto_sim {h0 h : Heap C} {a b : ℕ} {c : Ct C} (ho : h0.Own b) (ha : Rd b h0 a)
    (hu : Upd b h0 h c) (o : List String) :
    Sim h (copyInto b a o) (c.Copy (h0.viewCt a) o) (RelU b h0) := by
  unfold copyInto Ct.Copy
  have key : ∀ (o : List String) (m : GoMap String (RQ C)) (h : Heap C), Upd b h0 h ⟨m⟩ →
      Sim h (Mem.forEach o (fun id (_ : Unit) => do
        let src ← load a id
        let dst ← load b id
        store b id (src.copy dst)) ()) (Ct.copyIntoLoop (h0.viewCt a) m o)
        fun h' _ m' => Upd b h0 h' ⟨m'⟩ := by
    intro o
    induction o with
    | nil => intro m h hu; exact hu
    | cons id o ih =>
      intro m h hu
      unfold Mem.forEach Ct.copyIntoLoop
      simp only [bind_assoc]
      refine Sim.load_bind (hu.read ha) fun src _ => ?_
      refine Sim.load_bind (c := ⟨m⟩) hu.1 fun dst hd => ?_
      exact Sim.store_upd hu ho hd fun h' hu' => ih _ h' hu'
  have := Sim.bind (k := fun _ => (pure () : HM C Unit)) (k' := fun m => .ok (⟨m⟩ : Ct C))
    (R := RelU b h0) (key o c.value h hu) fun h' _ m' hm => Sim.pure hm
  simpa using this

/-- `DropLevel` on pointers. -/
theorem dropLevel_sim {h0 h : Heap C} {b : ℕ} {c : Ct C} (ho : h0.Own b)
    (hu : Upd b h0 h c) (n : ℕ) (o : List String) :
    Sim h (Mem.dropLevel b n o) (MK.dropLevel c n o) (RelU b h0) := by
  unfold Mem.dropLevel MK.dropLevel
  refine Sim.level_bind hu.1 fun l _ => ?_
  split
  · exact Sim.error
  · refine Sim.forEach o ?_ hu
    intro id _ h _ c hu
    refine Sim.load_bind hu.1 fun p hp => ?_
    exact Sim.store_upd_end hu ho hp fun h' hu' => hu'

/-- `MultByConst` on pointers, up to the final assignment of the scale. -/
theorem mulLoops_sim {h0 h : Heap C} {a b : ℕ} {c : Ct C} (ho : h0.Own b) (ha : Rd b h0 a)
    (hu : Upd b h0 h c) (n : ℕ) (prm : CPar C) (re im sc : ℚ) (π : Sched) :
    Sim h (Mem.forN n (fun i (_ : Unit) => do
        let (c1, c2) := prm.scaledConsts re im sc i
        let k ← keysOf a
        Mem.forEach (π.f (2 * i) k) (Mem.mulHalfStep a b i (fun j => j.val < C.N / 2) c1) ()
        let k ← keysOf a
        Mem.forEach (π.f (2 * i + 1) k) (Mem.mulHalfStep a b i (fun j => ¬ j.val < C.N / 2) c2) ()) ())
      (MK.forN n (fun i out => do
        let (c1, c2) := prm.scaledConsts re im sc i
        let out ← MK.forEach (π.f (2 * i) (h0.viewCt a).value.keys)
          (MK.mulHalfStep (h0.viewCt a) i (fun j => j.val < C.N / 2) c1) out
        MK.forEach (π.f (2 * i + 1) (h0.viewCt a).value.keys)
          (MK.mulHalfStep (h0.viewCt a) i (fun j => ¬ j.val < C.N / 2) c2) out) c) (RelU b h0) := by
  have step : ∀ (i : ℕ) (sel : Fin C.N → Prop) [DecidablePred sel] (x : ZMod (C.q i)) (id : String)
      (h : Heap C) (s : Unit) (c : Ct C), Upd b h0 h c →
      Sim h (Mem.mulHalfStep a b i sel x id s) (MK.mulHalfStep (h0.viewCt a) i sel x id c)
        (RelU b h0) := by
    intro i sel _ x id h _ c hu
    unfold Mem.mulHalfStep MK.mulHalfStep
    refine Sim.load_bind (hu.read ha) fun p0 _ => ?_
    refine Sim.load_bind hu.1 fun p1 h1 => ?_
    exact Sim.store_upd_end hu ho h1 fun h' hu' => hu'
  refine Sim.forN n ?_ hu
  intro i _ h _ c hu
  have hk : ∀ {h : Heap C} {c : Ct C}, Upd b h0 h c → (h0.viewCt a).value.keys = (h.ct a).keys := by
    intro h c hu
    rw [Heap.viewCt_keys, hu.2.ct]
  rcases prm.scaledConsts re im sc i with ⟨c1, c2⟩
  refine Sim.keysOf_bind (Sim.bind (Q := RelU b h0) ?_ ?_)
  · rw [hk hu]
    exact Sim.forEach _ (fun id _ h s c hu => step i _ c1 id h s c hu) hu
  · intro h' _ c' hu'
    refine Sim.keysOf_bind ?_
    rw [hk hu']
    exact Sim.forEach _ (fun id _ h s c hu => step i _ c2 id h s c hu) hu'

/-- `MultByConst(x, c, y)` on pointers, when the two ciphertexts share nothing. -/
theorem multByConst_sim {h : Heap C} {x y : ℕ} (ho : h.Own (h.cct y).1)
    (ha : Rd (h.cct y).1 h (h.cct x).1) (prm : CPar C) (c : Const) (π : Sched) :
    Sim h (Mem.multByConst prm x c y π) (prm.MultByConst (h.view x) c (h.view y) π)
      fun h' _ r => h'.view y = r ∧ Wr {y} (h.polys (h.cct y).1) h h' := by
  unfold Mem.multByConst CPar.MultByConst
  refine Sim.ctOf_bind (Sim.ctOf_bind ?_)
  refine Sim.level_bind (a := (h.cct x).1) rfl fun l0 _ => ?_
  refine Sim.level_bind (a := (h.cct y).1) rfl fun l1 _ => ?_
  dsimp only
  rcases prm.getConstAndScale (min l0 l1) c with ⟨re, im, sc⟩
  dsimp only
  refine Sim.bind (mulLoops_sim ho ha (Upd.refl _ h) (min l0 l1 + 1) prm re im sc π) ?_
  rintro h' _ c' hu
  have e : ∀ z, h'.cct z = h.cct z := fun z => hu.2.cct z (by simp)
  refine Sim.scaleOf_bind (Sim.setScale_end ⟨?_, ?_⟩)
  · simp only [Heap.view, Function.update_self, e]
    congr 1
    exact hu.1
  · refine ⟨hu.2.next, hu.2.ct, fun z hz => ?_, fun z => ?_, hu.2.poly⟩
    · exact (Function.update_of_ne (by simpa using hz) _ _).trans (e z)
    · by_cases hz : z = y
      · subst hz; simp only [Function.update_self, e]
      · simp only [Function.update_of_ne hz, e]

end MK
