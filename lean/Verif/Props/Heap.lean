import Verif.HeapClient
import Verif.WordSpec

/-!
# C57: ciphertexts behave as values

For every client program the execution on the memory (`pClient`) and the execution on values
(`vClient`) panic alike, or return the same results and leave ciphertexts with the same contents.
-/

noncomputable section

namespace MK

open Mem
open Word (idx)

variable {C : Ctx} {Msg : Type} {h h' h'' : Heap C} {P : Pools} {α β : Type}

/-! ## Copying a ciphertext into itself -/

theorem RPoly.copy_self {N : ℕ} {m : ℕ → ℕ} (p : RPoly N m) : p.copy p = p := by
  unfold RPoly.copy
  cases p
  simp

theorem GoMap.set_get {K V : Type} [DecidableEq K] {m : GoMap K V} (hw : m.WF) {k : K} {v : V}
    (hg : m.get? k = some v) : m.set k v = m := by
  have hk : m.has k = true := by rw [GoMap.has, hg]; rfl
  have e : (m.entries.map fun e => if e.1 = k then (k, v) else e) = m.entries := by
    conv_rhs => rw [← List.map_id m.entries]
    refine List.map_congr_left fun e he => ?_
    by_cases h1 : e.1 = k
    · have := GoMap.get?_of_mem_entries hw he
      rw [h1, hg] at this
      simp only [h1, if_true, id]
      rw [Option.some.inj this, ← h1]
    · simp [h1]
  unfold GoMap.set
  rw [if_pos hk, e]

theorem viewCt_wf {a : ℕ} (hw : (h.ct a).WF) : (h.viewCt a).value.WF := by
  unfold GoMap.WF
  rw [Heap.viewCt]
  have : ((h.ct a).mapVals fun _ p => h.poly p).keys = (h.ct a).keys := by
    simp [GoMap.keys, GoMap.mapVals, List.map_map, Function.comp_def]
  rw [this]
  exact hw

theorem copyInto_self {h0 : Heap C} {a : ℕ} (ho : h0.Own a) (o : List String) :
    ∀ {h : Heap C}, Upd a h0 h (h0.viewCt a) →
      Sim h (copyInto a a o) ((h0.viewCt a).Copy (h0.viewCt a) o) (RelU a h0) := by
  have key : ∀ (o : List String) {h : Heap C}, Upd a h0 h (h0.viewCt a) →
      Sim h (Mem.forEach o (fun id (_ : Unit) => do
        let src ← load a id
        let dst ← load a id
        store a id (src.copy dst)) ()) (Ct.copyIntoLoop (h0.viewCt a) (h0.viewCt a).value o)
        fun h' _ m' => Upd a h0 h' ⟨m'⟩ := by
    intro o
    induction o with
    | nil => intro h hu; exact hu
    | cons id o ih =>
      intro h hu
      unfold Mem.forEach Ct.copyIntoLoop
      simp only [bind_assoc]
      refine Sim.load_bind hu.1 fun p hp => ?_
      refine Sim.load_val hu.1 hp ?_
      have e : (h0.viewCt a).value.set id (p.copy p) = (h0.viewCt a).value := by
        rw [RPoly.copy_self, GoMap.set_get (viewCt_wf ho.1) hp]
      rw [GoMap.deref_of_get? hp]
      simp only [Go.ok_bind]
      refine Sim.store_upd hu ho hp fun h' hu' => ?_
      rw [e] at hu' ⊢
      exact ih hu'
  intro h hu
  unfold copyInto Ct.Copy
  have := Sim.bind (k := fun _ => (pure () : HM C Unit)) (k' := fun m => .ok (⟨m⟩ : Ct C))
    (R := RelU a h0) (key o hu) fun h' _ m' hm => Sim.pure hm
  simpa using this

/-! ## The ciphertexts of a client -/

/-- Two ciphertexts without anything in common. -/
def Apart (h : Heap C) (x y : ℕ) : Prop :=
  x ≠ y ∧ (h.cct x).1 ≠ (h.cct y).1 ∧ Disjoint (h.polys (h.cct x).1) (h.polys (h.cct y).1)

theorem Apart.symm {x y : ℕ} (a : Apart h x y) : Apart h y x := ⟨a.1.symm, a.2.1.symm, a.2.2.symm⟩

/-- The ciphertexts of a client share nothing with each other and with the pools of the evaluator. -/
structure Objs (h : Heap C) (P : Pools) (xs : List ℕ) : Prop where
  sep : ∀ x ∈ xs, Sep h P x
  own : ∀ x ∈ xs, h.Own (h.cct x).1
  apart : xs.Pairwise (Apart h)

theorem Objs.ne {xs : List ℕ} (o : Objs h P xs) {x y : ℕ} (hx : x ∈ xs) (hy : y ∈ xs) (hne : x ≠ y) :
    Apart h x y := by
  obtain ⟨i, hi, rfl⟩ := List.getElem_of_mem hx
  obtain ⟨j, hj, rfl⟩ := List.getElem_of_mem hy
  have key := List.pairwise_iff_getElem.mp o.apart
  rcases lt_trichotomy i j with hij | rfl | hij
  · exact key i j hi hj hij
  · exact absurd rfl hne
  · exact (key j i hj hi hij).symm

theorem Objs.eq_iff {xs : List ℕ} (o : Objs h P xs) {i j x y : ℕ} (hi : xs[i]? = some x)
    (hj : xs[j]? = some y) : x = y ↔ i = j := by
  obtain ⟨hi', rfl⟩ := List.getElem?_eq_some_iff.mp hi
  obtain ⟨hj', rfl⟩ := List.getElem?_eq_some_iff.mp hj
  have key := List.pairwise_iff_getElem.mp o.apart
  constructor
  · intro e
    rcases lt_trichotomy i j with hij | hij | hij
    · exact absurd e (key i j hi' hj' hij).1
    · exact hij
    · exact absurd e.symm (key j i hj' hi' hij).1
  · rintro rfl; rfl

/-- A call that only uses the pools. -/
theorem Objs.keep {xs : List ℕ} (o : Objs h P xs) (w : EvFr P ∅ ∅ h h') :
    Objs h' P xs ∧ xs.map h'.view = xs.map h.view := by
  have hp : ∀ x ∈ xs, h'.polys (h'.cct x).1 = h.polys (h.cct x).1 := fun x hx => by
    rw [(o.sep x hx).cct_eq w, w.fr.polys (o.sep x hx).valid (by simpa using (o.sep x hx).ne)]
  refine ⟨⟨fun x hx => (o.sep x hx).step w, fun x hx => ?_, ?_⟩, ?_⟩
  · rw [(o.sep x hx).cct_eq w]
    exact w.fr.own (o.sep x hx).valid (by simpa using (o.sep x hx).ne) (o.own x hx)
  · refine o.apart.imp_of_mem fun {x y} hx hy ha => ⟨ha.1, ?_, ?_⟩
    · rw [(o.sep x hx).cct_eq w, (o.sep y hy).cct_eq w]; exact ha.2.1
    · rw [hp x hx, hp y hy]; exact ha.2.2
  · exact List.map_congr_left fun x hx => (o.sep x hx).view w (by simp) (by simp)

/-- A call that returns a new ciphertext. -/
theorem Objs.snoc {xs : List ℕ} (o : Objs h P xs) {y : ℕ} {c : CCt C} (n : NewRes P h h' y c) :
    Objs h' P (xs ++ [y]) ∧ (xs ++ [y]).map h'.view = xs.map h.view ++ [c] := by
  obtain ⟨o', e⟩ := o.keep n.fr
  refine ⟨⟨?_, ?_, ?_⟩, ?_⟩
  · intro x hx
    rcases List.mem_append.mp hx with hx | hx
    · exact o'.sep x hx
    · rw [List.mem_singleton.mp hx]; exact n.sep
  · intro x hx
    rcases List.mem_append.mp hx with hx | hx
    · exact o'.own x hx
    · rw [List.mem_singleton.mp hx]; exact n.own
  · refine List.pairwise_append.mpr ⟨o'.apart, List.pairwise_singleton _ _, fun x hx z hz => ?_⟩
    rw [List.mem_singleton.mp hz]
    obtain ⟨-, -, h1, h2, h3⟩ := n.keeps (o.sep x hx)
    exact ⟨h1, h2, h3⟩
  · rw [List.map_append, e, List.map_singleton, n.view]

/-- A call that writes the ciphertext at `y`. -/
structure Touch (P : Pools) (h h' : Heap C) (y : ℕ) (c : CCt C) : Prop where
  fr : Fr {(h.cct y).1, P.pool} {y} (h.polys (h.cct y).1 ∪ (h.polys P.pool ∪ {P.polyQ})) h h'
  ok : PoolOk h' P
  pool : h'.polys P.pool ⊆ h.polys P.pool ∪ {p | h.next ≤ p}
  sep : Sep h' P y
  own : h'.Own (h'.cct y).1
  cct1 : (h'.cct y).1 = (h.cct y).1
  polys : h'.polys (h.cct y).1 ⊆ h.polys (h.cct y).1 ∪ {p | h.next ≤ p}
  view : h'.view y = c

theorem Objs.touch {xs : List ℕ} (o : Objs h P xs) {j y : ℕ} (hj : xs[j]? = some y) {c : CCt C}
    (t : Touch P h h' y c) : Objs h' P xs ∧ xs.map h'.view = (xs.map h.view).set j c := by
  have hy : y ∈ xs := List.mem_of_getElem? hj
  have cct : ∀ x ∈ xs, x ≠ y → h'.cct x = h.cct x := fun x hx hne =>
    t.fr.cct x (o.sep x hx).lt (by simpa using hne)
  have nin : ∀ x ∈ xs, x ≠ y → (h.cct x).1 ∉ ({(h.cct y).1, P.pool} : Set ℕ) := fun x hx hne => by
    simp only [Set.mem_insert_iff, Set.mem_singleton_iff, not_or]
    exact ⟨(o.ne hx hy hne).2.1, (o.sep x hx).ne⟩
  have dis : ∀ x ∈ xs, x ≠ y → Disjoint (h.polys (h.cct x).1)
      (h.polys (h.cct y).1 ∪ (h.polys P.pool ∪ {P.polyQ})) := fun x hx hne => by
    refine Set.disjoint_union_right.mpr ⟨(o.ne hx hy hne).2.2, Set.disjoint_union_right.mpr
      ⟨(o.sep x hx).disj, Set.disjoint_singleton_right.mpr (o.sep x hx).polyQ⟩⟩
  have pol : ∀ x ∈ xs, x ≠ y → h'.polys (h'.cct x).1 = h.polys (h.cct x).1 := fun x hx hne => by
    rw [cct x hx hne, t.fr.polys (o.sep x hx).valid (nin x hx hne)]
  have sep : ∀ x ∈ xs, x ≠ y → Sep h' P x := fun x hx hne => by
    have s := o.sep x hx
    refine ⟨s.lt.trans_le t.fr.next, ?_, ?_, ?_, ?_⟩
    · rw [cct x hx hne]; exact t.fr.valid s.valid (nin x hx hne)
    · rw [cct x hx hne]; exact s.ne
    · rw [pol x hx hne, Set.disjoint_left]
      intro p h1 h2
      rcases t.pool h2 with h2 | h2
      · exact Set.disjoint_left.mp s.disj h1 h2
      · exact absurd (s.valid.polys p h1) (not_lt.mpr h2)
    · rw [pol x hx hne]; exact s.polyQ
  have vw : ∀ x ∈ xs, x ≠ y → h'.view x = h.view x := fun x hx hne => by
    unfold Heap.view
    rw [cct x hx hne, t.fr.viewCt (o.sep x hx).valid (nin x hx hne) (dis x hx hne)]
  refine ⟨⟨fun x hx => ?_, fun x hx => ?_, ?_⟩, ?_⟩
  · rcases eq_or_ne x y with rfl | hne
    · exact t.sep
    · exact sep x hx hne
  · rcases eq_or_ne x y with rfl | hne
    · exact t.own
    · rw [cct x hx hne]; exact t.fr.own (o.sep x hx).valid (nin x hx hne) (o.own x hx)
  · have one : ∀ x ∈ xs, x ≠ y → Apart h x y → Apart h' x y := fun x hx hne ha => by
      refine ⟨hne, ?_, ?_⟩
      · rw [cct x hx hne, t.cct1]; exact ha.2.1
      · rw [pol x hx hne, t.cct1, Set.disjoint_left]
        intro p h1 h2
        rcases t.polys h2 with h2 | h2
        · exact Set.disjoint_left.mp ha.2.2 h1 h2
        · exact absurd ((o.sep x hx).valid.polys p h1) (not_lt.mpr h2)
    refine o.apart.imp_of_mem fun {x z} hx hz ha => ?_
    rcases eq_or_ne x y with rfl | hxy
    · exact (one z hz ha.1.symm ha.symm).symm
    · rcases eq_or_ne z y with rfl | hzy
      · exact one x hx hxy ha
      · refine ⟨ha.1, ?_, ?_⟩
        · rw [cct x hx hxy, cct z hz hzy]; exact ha.2.1
        · rw [pol x hx hxy, pol z hz hzy]; exact ha.2.2
  · refine List.ext_getElem? fun i => ?_
    rw [List.getElem?_set, List.getElem?_map, List.getElem?_map, List.length_map]
    by_cases hij : j = i
    · subst hij
      have := (List.getElem?_eq_some_iff.mp hj).1
      rw [if_pos rfl, if_pos this, hj, Option.map_some, t.view]
    · rw [if_neg hij]
      cases hi : xs[i]? with
      | none => rfl
      | some x =>
        have hne : x ≠ y := fun e => hij ((o.eq_iff hi hj).mp e).symm
        simp only [Option.map_some]
        rw [vw x (List.mem_of_getElem? hi) hne]

theorem Touch.ofEvFr {y : ℕ} {c : CCt C} (sy : Sep h P y) (ho : h.Own (h.cct y).1)
    (w : EvFr P {y} (h.polys (h.cct y).1) h h') (hv : h'.view y = c) : Touch P h h' y c := by
  have e := sy.cct_eq w
  have hp := w.fr.polys sy.valid (by simpa using sy.ne)
  exact ⟨w.fr.mono (by simp) subset_rfl subset_rfl, w.ok, w.pool, sy.step w,
    by rw [e]; exact w.fr.own sy.valid (by simpa using sy.ne) ho, e,
    by rw [hp]; exact Set.subset_union_left, hv⟩

theorem Touch.ofWr {y : ℕ} {c : CCt C} (ok : PoolOk h P) (sy : Sep h P y) (ho : h.Own (h.cct y).1)
    (w : Wr {y} (h.polys (h.cct y).1) h h') (hv : h'.view y = c) : Touch P h h' y c :=
  Touch.ofEvFr sy ho (EvFr.ofWr ok w) hv

/-- A call that changes the map of the ciphertext at `y`. -/
theorem Touch.ofFr {y : ℕ} {c : Ct C} (ok : PoolOk h P) (sy : Sep h P y)
    (w : Fr {(h.cct y).1} ∅ (h.polys (h.cct y).1) h h') (hv : h'.viewCt (h.cct y).1 = c)
    (ho : h'.Own (h.cct y).1)
    (hp : h'.polys (h.cct y).1 ⊆ h.polys (h.cct y).1 ∪ {p | h.next ≤ p ∧ p < h'.next}) :
    Touch P h h' y ⟨c, (h.view y).scale⟩ := by
  have ec : h'.cct y = h.cct y := w.cct y sy.lt (by simp)
  have np : P.pool ∉ ({(h.cct y).1} : Set ℕ) := by simpa using sy.ne.symm
  have epool := w.polys ok.valid np
  have nq : P.polyQ ∉ h'.polys (h.cct y).1 := fun hq => by
    rcases hp hq with hq | hq
    · exact sy.polyQ hq
    · exact absurd ok.polyQ_lt (not_lt.mpr hq.1)
  refine ⟨w.mono (by simp) (by simp) Set.subset_union_left, ?_, by rw [epool]; exact Set.subset_union_left,
    ?_, by rw [ec]; exact ho, by rw [ec], fun p h1 => (hp h1).imp id And.left, ?_⟩
  · exact ⟨w.valid ok.valid np, w.own ok.valid np ok.own, ok.polyQ_lt.trans_le w.next,
      by rw [epool]; exact ok.polyQ⟩
  · refine ⟨sy.lt.trans_le w.next, ?_, by rw [ec]; exact sy.ne, ?_, by rw [ec]; exact nq⟩
    · rw [ec]
      refine ⟨sy.valid.lt.trans_le w.next, ho.1, fun p h1 => ?_⟩
      rcases hp h1 with h1 | h1
      · exact (sy.valid.polys p h1).trans_le w.next
      · exact h1.2
    · rw [ec, epool, Set.disjoint_left]
      intro p h1 h2
      rcases hp h1 with h1 | h1
      · exact Set.disjoint_left.mp sy.disj h1 h2
      · exact absurd (ok.valid.polys p h2) (not_lt.mpr h1.1)
  · unfold Heap.view; rw [ec, hv]

theorem Fr.viewEv' {ev : HEv C} {y : ℕ} (w : Fr {(h.cct y).1} ∅ (h.polys (h.cct y).1) h h')
    (ok : PoolOk h ev.toPools) (sy : Sep h ev.toPools y) : h'.viewEv ev = h.viewEv ev := by
  unfold Heap.viewEv
  rw [w.viewCt ok.valid (by simpa using sy.ne.symm) sy.disj.symm, w.poly _ ok.polyQ_lt sy.polyQ]

/-! ## One call -/

/-- The client with values that a client with pointers stands for. -/
def PClient.abs (h : Heap C) (s : PClient C Msg) : VClient C Msg :=
  ⟨h.viewEv s.ev, s.enc, s.dec, s.rlks, s.objs.map h.view, s.hs, s.outs⟩

/-- The invariant of a client. -/
structure PClient.Good (h : Heap C) (s : PClient C Msg) : Prop where
  ok : PoolOk h s.ev.toPools
  objs : Objs h s.ev.toPools s.objs

/-- The relation between the two executions. -/
abbrev Rel : Heap C → PClient C Msg → VClient C Msg → Prop :=
  fun h s v => s.Good h ∧ v = s.abs h

theorem Sim.obj {xs : List ℕ} {i : ℕ} {k : ℕ → HM C α} {k' : CCt C → Go β}
    {Q : Heap C → α → β → Prop}
    (hk : ∀ x, xs[i]? = some x → Sim h (k x) (k' (h.view x)) Q) :
    Sim h (lift (idx xs i) >>= k) (idx (xs.map h.view) i >>= k') Q := by
  unfold idx
  rw [List.getElem?_map]
  cases hi : xs[i]? with
  | none => exact Sim.error
  | some x => exact hk x hi

theorem PClient.Good.new {s : PClient C Msg} (g : s.Good h) {ev : HEv C} {y : ℕ} {e : Ev C} {c : CCt C}
    (r : ResEv s.ev h h' (ev, y) (e, c)) {s' : PClient C Msg} (h1 : s'.ev = ev)
    (h2 : s'.objs = s.objs ++ [y]) :
    s'.Good h' ∧ h'.viewEv s'.ev = e ∧ s'.objs.map h'.view = s.objs.map h.view ++ [c] := by
  obtain ⟨r1, r2, n⟩ := r
  obtain ⟨o, m⟩ := g.objs.snoc n
  have : s'.ev.toPools = s.ev.toPools := by rw [h1]; exact r1
  exact ⟨⟨by rw [this]; exact n.pools, by rw [this, h2]; exact o⟩, by rw [h1]; exact r2, by rw [h2]; exact m⟩

theorem PClient.Good.newC {s : PClient C Msg} (g : s.Good h) {y : ℕ} {c : CCt C} (n : NewC h h' y c) :
    ResEv s.ev h h' (s.ev, y) (h.viewEv s.ev, c) :=
  ⟨rfl, n.viewEv g.ok, n.res g.ok (B := ∅) (by simp) (EvFr.refl (EvFr.ofFr g.ok n.fr).ok _ _) n.view⟩

theorem PClient.Good.write {s : PClient C Msg} (g : s.Good h) {j y : ℕ} (hj : s.objs[j]? = some y)
    {c : CCt C} (t : Touch s.ev.toPools h h' y c) {s' : PClient C Msg} (h1 : s'.ev = s.ev)
    (h2 : s'.objs = s.objs) :
    s'.Good h' ∧ s'.objs.map h'.view = (s.objs.map h.view).set j c := by
  obtain ⟨o, m⟩ := g.objs.touch hj t
  exact ⟨⟨by rw [h1]; exact t.ok, by rw [h1, h2]; exact o⟩, by rw [h2]; exact m⟩

theorem PClient.Good.abs_new {s : PClient C Msg} (g : s.Good h) {ev : HEv C} {y : ℕ} {e : Ev C}
    {c : CCt C} (r : ResEv s.ev h h' (ev, y) (e, c)) (enc : CEnc C) (dec : CDec C)
    (rlks : List (RlkSet C)) (hs : List (HoistedCt C)) (outs : List (Out Msg)) :
    Rel h' ⟨ev, enc, dec, rlks, s.objs ++ [y], hs, outs⟩
      ⟨e, enc, dec, rlks, (s.abs h).objs ++ [c], hs, outs⟩ := by
  obtain ⟨g', h1, h2⟩ := g.new r (s' := ⟨ev, enc, dec, rlks, s.objs ++ [y], hs, outs⟩) rfl rfl
  refine ⟨g', ?_⟩
  unfold PClient.abs
  rw [h1, h2]

theorem PClient.Good.abs_write {s : PClient C Msg} (g : s.Good h) {j y : ℕ}
    (hj : s.objs[j]? = some y) {c : CCt C} (t : Touch s.ev.toPools h h' y c) {e : Ev C}
    (he : h'.viewEv s.ev = e) (enc : CEnc C) (dec : CDec C)
    (rlks : List (RlkSet C)) (hs : List (HoistedCt C)) (outs : List (Out Msg)) :
    Rel h' ⟨s.ev, enc, dec, rlks, s.objs, hs, outs⟩
      ⟨e, enc, dec, rlks, (s.abs h).objs.set j c, hs, outs⟩ := by
  obtain ⟨g', h2⟩ := g.write hj t (s' := ⟨s.ev, enc, dec, rlks, s.objs, hs, outs⟩) rfl rfl
  refine ⟨g', ?_⟩
  unfold PClient.abs
  rw [he, h2]

theorem PClient.Good.abs_keep {s : PClient C Msg} (g : s.Good h) (w : EvFr s.ev.toPools ∅ ∅ h h')
    {ev : HEv C} (hp : ev.toPools = s.ev.toPools) {e : Ev C} (he : h'.viewEv ev = e) (enc : CEnc C)
    (dec : CDec C) (rlks : List (RlkSet C)) (hs : List (HoistedCt C)) (outs : List (Out Msg)) :
    Rel h' ⟨ev, enc, dec, rlks, s.objs, hs, outs⟩
      ⟨e, enc, dec, rlks, (s.abs h).objs, hs, outs⟩ := by
  obtain ⟨o, m⟩ := g.objs.keep w
  refine ⟨⟨by rw [hp]; exact w.ok, by rw [hp]; exact o⟩, ?_⟩
  unfold PClient.abs
  rw [he, m]

/-- A call that writes the polynomials of the ciphertext at `y`. -/
theorem Touch.ofUpd {y : ℕ} {c : Ct C} (ok : PoolOk h P) (sy : Sep h P y) (ho : h.Own (h.cct y).1)
    (u : Upd (h.cct y).1 h h' c) :
    Touch P h h' y ⟨c, (h.view y).scale⟩ ∧ Wr {y} (h.polys (h.cct y).1) h h' := by
  have w : Wr {y} (h.polys (h.cct y).1) h h' := u.2.mono (by simp) subset_rfl
  refine ⟨Touch.ofWr ok sy ho w ?_, w⟩
  have e : h'.cct y = h.cct y := u.2.cct y (by simp)
  simp only [Heap.view, e, u.1]

theorem dropLevelNew_newC {x : ℕ} (hv : h.Valid (h.cct x).1) (hx : x < h.next) (n : ℕ) (π : Sched) :
    Sim h (Mem.dropLevelNew x n π) (MK.DropLevelNew (h.view x) n π) (NewC h) := by
  unfold Mem.dropLevelNew MK.DropLevelNew
  refine Sim.ctOf_bind (Sim.keysOf_bind ?_)
  rw [show (h.ct (h.cct x).1).keys = (h.view x).ct.value.keys from (h.viewCt_keys _).symm]
  refine Sim.bind (copyNewC_sim hv hx _) ?_
  intro h1 y c nw
  refine Sim.ctOf_bind (Sim.keysOf_bind ?_)
  have vy : h1.viewCt (h1.cct y).1 = c.ct := by rw [← nw.view]; rfl
  rw [show (h1.ct (h1.cct y).1).keys = c.ct.value.keys by rw [← vy, Heap.viewCt_keys]]
  refine Sim.bind (dropLevel_sim nw.own (h := h1) ⟨vy, Wr.refl _ _ _⟩ _ _) ?_
  intro h2 _ out hu
  refine Sim.pure (nw.write (hu.2.mono (by simp) subset_rfl) ?_)
  rw [← nw.view]
  unfold Heap.view
  rw [hu.2.cct y (by simp), hu.1]

/-- Every call keeps the invariant and does on values what it does on the memory. -/
theorem step_sim (E : Encoder C Msg) (prm : CPar C) {c : Cmd C Msg} (hc : c.Ok) (π : Sched)
    {s : PClient C Msg} (g : s.Good h) :
    Sim h (pStep E prm c π s) (vStep E prm c π (s.abs h)) Rel := by
  have hsep : ∀ {i x : ℕ}, s.objs[i]? = some x → Sep h s.ev.toPools x := fun hi =>
    g.objs.sep _ (List.mem_of_getElem? hi)
  have hown : ∀ {i x : ℕ}, s.objs[i]? = some x → h.Own (h.cct x).1 := fun hi =>
    g.objs.own _ (List.mem_of_getElem? hi)
  have hdis : ∀ {i j x y : ℕ}, s.objs[i]? = some x → s.objs[j]? = some y → x ≠ y →
      Disjoint (h.polys (h.cct x).1) (h.polys (h.cct y).1) := fun hi hj hne =>
    (g.objs.ne (List.mem_of_getElem? hi) (List.mem_of_getElem? hj) hne).2.2
  cases c with
  | newCt level ids scale =>
    refine Sim.bind (k' := fun r => .ok { s.abs h with objs := (s.abs h).objs ++ [r] })
      (newCCiphertext_sim h level (π.f 0 (GoMap.keys ids)) scale) ?_
    intro h' y c n
    exact Sim.pure (g.abs_new (g.newC n) _ _ _ _ _)
  | copyNew i =>
    refine Sim.obj fun x hi => Sim.ctOf_bind (Sim.keysOf_bind ?_)
    have := copyNewC_sim (hsep hi).valid (hsep hi).lt (π.f 0 (h.view x).ct.value.keys)
    refine Sim.bind (by rw [← h.viewCt_keys]; exact this) ?_
    intro h' y c n
    exact Sim.pure (g.abs_new (g.newC n) _ _ _ _ _)
  | setScale i sc =>
    refine Sim.obj fun x hi => Sim.setScale_bind (Sim.pure ?_)
    have w := Wr.ofScale h x sc
    refine g.abs_write hi (Touch.ofWr g.ok (hsep hi) (hown hi) (w.mono subset_rfl (by simp)) ?_)
      (Wr.viewEv g.ok (hsep hi) (w.mono subset_rfl (by simp))) _ _ _ _ _
    simp [Heap.view, Heap.viewCt]
  | pad i ids =>
    refine Sim.obj fun x hi => ?_
    have : Sim h (Mem.padC x ids π) ((h.view x).ct.PadCiphertext (π.f 0 (h.view x).ct.value.keys)
        (π.f 1 (GoMap.keys ids))) fun h' _ c => h'.viewCt (h.cct x).1 = c ∧ Grow (h.cct x).1 h h' := by
      refine Sim.ctOf_bind (Sim.keysOf_bind ?_)
      rw [← h.viewCt_keys]
      exact padCiphertext_sim (hsep hi).valid (hown hi) _ _
    refine Sim.bind this ?_
    rintro h' _ c ⟨hv, gr⟩
    have fr := gr.fr.mono subset_rfl subset_rfl (Set.empty_subset (h.polys (h.cct x).1))
    refine Sim.pure (g.abs_write hi (Touch.ofFr g.ok (hsep hi) fr hv gr.own ?_)
      (fr.viewEv' g.ok (hsep hi)) _ _ _ _ _)
    intro p hp
    rcases gr.polys hp with hp' | hp'
    · exact Or.inl hp'
    · exact Or.inr ⟨hp', gr.valid.polys p hp⟩
  | copy i j =>
    refine Sim.obj fun x hi => Sim.obj fun y hj => ?_
    have : Sim h (Mem.copyC x y π) ((h.view x).ct.Copy (h.view y).ct (π.f 0 (h.view y).ct.value.keys))
        (RelU (h.cct x).1 h) := by
      refine Sim.ctOf_bind (Sim.ctOf_bind (Sim.keysOf_bind ?_))
      rw [← h.viewCt_keys]
      rcases eq_or_ne x y with rfl | hne
      · exact copyInto_self (hown hi) _ (Upd.refl _ _)
      · exact copyInto_sim (hown hi) ⟨(hsep hj).valid.wf, (hdis hi hj hne).symm⟩ (Upd.refl _ _) _
    refine Sim.bind this ?_
    intro h' _ c u
    obtain ⟨t, w⟩ := Touch.ofUpd g.ok (hsep hi) (hown hi) u
    exact Sim.pure (g.abs_write hi t (Wr.viewEv g.ok (hsep hi) w) _ _ _ _ _)
  | add i j =>
    refine Sim.obj fun x hi => Sim.obj fun y hj => ?_
    refine Sim.bind (AddNew_sim g.ok (hsep hi) (hsep hj) prm π) ?_
    rintro h' ⟨ev, z⟩ ⟨e, c⟩ r
    exact Sim.pure (g.abs_new r _ _ _ _ _)
  | sub i j =>
    refine Sim.obj fun x hi => Sim.obj fun y hj => ?_
    refine Sim.bind (SubNew_sim g.ok (hsep hi) (hsep hj) prm π) ?_
    rintro h' ⟨ev, z⟩ ⟨e, c⟩ r
    exact Sim.pure (g.abs_new r _ _ _ _ _)
  | mul i j r =>
    refine Sim.obj fun x hi => Sim.obj fun y hj => Sim.lift_bind fun rlk _ => ?_
    have := MulRelinNew_sim g.ok (hsep hi) (hsep hj) prm rlk π
    rw [decide_eq_decide.mpr (g.objs.eq_iff hi hj)] at this
    refine Sim.bind this ?_
    rintro h' ⟨ev, rlk', z⟩ ⟨e, rlk'', c⟩ ⟨rfl, r⟩
    exact Sim.pure (g.abs_new r _ _ _ _ _)
  | mulPtxt i pt ptScale =>
    refine Sim.obj fun x hi => ?_
    refine Sim.bind (MulPtxtNew_sim g.ok (hsep hi) prm pt ptScale π) ?_
    rintro h' ⟨ev, z⟩ ⟨e, c⟩ r
    exact Sim.pure (g.abs_new r _ _ _ _ _)
  | rotate i rotidx rkSet =>
    refine Sim.obj fun x hi => ?_
    refine Sim.bind (RotateNew_sim g.ok (hsep hi) prm rotidx rkSet π) ?_
    rintro h' ⟨ev, z⟩ ⟨e, c⟩ r
    exact Sim.pure (g.abs_new r _ _ _ _ _)
  | conj i ckSet =>
    refine Sim.obj fun x hi => ?_
    refine Sim.bind (ConjugateNew_sim g.ok (hsep hi) prm ckSet π) ?_
    rintro h' ⟨ev, z⟩ ⟨e, c⟩ r
    exact Sim.pure (g.abs_new r _ _ _ _ _)
  | rescaleNew i threshold =>
    refine Sim.obj fun x hi => ?_
    refine Sim.bind (RescaleNew_sim g.ok (hsep hi) prm threshold π) ?_
    rintro h' ⟨er, ev, z⟩ ⟨er', e, c⟩ ⟨rfl, r⟩
    exact Sim.pure (g.abs_new r _ _ _ _ _)
  | dropNew i levels =>
    refine Sim.obj fun x hi => ?_
    refine Sim.bind (dropLevelNew_newC (hsep hi).valid (hsep hi).lt levels π) ?_
    intro h' z c n
    exact Sim.pure (g.abs_new (g.newC n) _ _ _ _ _)
  | drop i levels =>
    refine Sim.obj fun x hi => ?_
    have : Sim h (Mem.dropLevelC x levels π) (dropLevel (h.view x).ct levels
        (π.f 0 (h.view x).ct.value.keys)) (RelU (h.cct x).1 h) := by
      refine Sim.ctOf_bind (Sim.keysOf_bind ?_)
      rw [← h.viewCt_keys]
      exact dropLevel_sim (hown hi) (Upd.refl _ _) _ _
    refine Sim.bind this ?_
    intro h' _ c u
    obtain ⟨t, w⟩ := Touch.ofUpd g.ok (hsep hi) (hown hi) u
    exact Sim.pure (g.abs_write hi t (Wr.viewEv g.ok (hsep hi) w) _ _ _ _ _)
  | mulConst i c j =>
    refine Sim.obj fun x hi => Sim.obj fun y hj => ?_
    have : Sim h (Mem.multByConst prm x c y π) (prm.MultByConst (h.view x) c (h.view y) π)
        fun h' _ r => h'.view y = r ∧ Wr {y} (h.polys (h.cct y).1) h h' := by
      rcases eq_or_ne x y with rfl | hne
      · exact multByConst_inPlace (hown hi) prm c π
      · exact multByConst_sim (hown hj) ⟨(hsep hi).valid.wf, hdis hi hj hne⟩ prm c π
    refine Sim.bind this ?_
    rintro h' _ r ⟨hv, w⟩
    exact Sim.pure (g.abs_write hj (Touch.ofWr g.ok (hsep hj) (hown hj) w hv)
      (Wr.viewEv g.ok (hsep hj) w) _ _ _ _ _)
  | rescale i minScale j =>
    refine Sim.obj fun x hi => Sim.obj fun y hj => ?_
    have := Rescale_sim g.ok (hsep hi) (hsep hj) (hown hj) (hdis hi hj) prm minScale π
    rw [decide_eq_decide.mpr (g.objs.eq_iff hi hj)] at this
    refine Sim.bind this ?_
    rintro h' er ⟨er', e, c⟩ ⟨rfl, he, hv, w⟩
    exact Sim.pure (g.abs_write hj (Touch.ofEvFr (hsep hj) (hown hj) w hv) he _ _ _ _ _)
  | encNew rnd msg pk =>
    refine Sim.bind (EncryptMsgNew_sim E prm s.enc rnd msg pk) ?_
    rintro h' ⟨enc, z⟩ ⟨enc', c⟩ ⟨rfl, n⟩
    exact Sim.pure (g.abs_new (g.newC n) _ _ _ _ _)
  | encExpand rnd msg pk ids =>
    refine Sim.bind (EncryptMsgNewExpand_sim E prm s.enc rnd msg hc (π.f 0 (GoMap.keys ids))) ?_
    rintro h' ⟨enc, z⟩ ⟨enc', c⟩ ⟨rfl, n⟩
    exact Sim.pure (g.abs_new (g.newC n) _ _ _ _ _)
  | encInto rnd msg pk j =>
    refine Sim.obj fun y hj => ?_
    refine Sim.bind (EncryptPtxt_sim (hown hj) _ rnd _ _ hc) ?_
    rintro h' enc ⟨enc', c⟩ ⟨rfl, hv, w⟩
    exact Sim.pure (g.abs_write hj (Touch.ofWr g.ok (hsep hj) (hown hj) w hv)
      (Wr.viewEv g.ok (hsep hj) w) _ _ _ _ _)
  | encPtxt rnd pt ptScale pk j =>
    refine Sim.obj fun y hj => ?_
    refine Sim.bind (EncryptPtxt_sim (hown hj) s.enc rnd pt ptScale hc) ?_
    rintro h' enc ⟨enc', c⟩ ⟨rfl, hv, w⟩
    exact Sim.pure (g.abs_write hj (Touch.ofWr g.ok (hsep hj) (hown hj) w hv)
      (Wr.viewEv g.ok (hsep hj) w) _ _ _ _ _)
  | decrypt i skSet =>
    refine Sim.obj fun x hi => ?_
    refine Sim.bind (Decrypt_sim E s.dec (hsep hi).valid (hsep hi).lt skSet π) ?_
    rintro h' ⟨dec, m⟩ ⟨dec', m'⟩ ⟨e, w⟩
    cases e
    exact Sim.pure (g.abs_keep (EvFr.ofFr g.ok w) rfl (w.viewEv g.ok) _ _ _ _ _)
  | partialDec i sk =>
    refine Sim.obj fun x hi => ?_
    have : Sim h (Mem.partialDecryptC x sk) (PartialDecrypt (h.view x).ct sk)
        fun h' _ c => DecSt (h.cct x).1 h h' c := Sim.ctOf_bind (partialDecrypt_sim (hown hi) sk)
    refine Sim.bind this ?_
    intro h' _ c d
    exact Sim.pure (g.abs_write hi (Touch.ofFr g.ok (hsep hi) d.fr d.view d.own
      (d.polys.trans Set.subset_union_left)) (d.fr.viewEv' g.ok (hsep hi)) _ _ _ _ _)
  | hoist i =>
    refine Sim.obj fun x hi => ?_
    refine Sim.bind (HoistedForm_sim π) ?_
    rintro h' ⟨ev, H⟩ ⟨e, H'⟩ ⟨rfl, hp, he, rfl⟩
    exact Sim.pure (g.abs_keep (EvFr.refl g.ok _ _) hp he _ _ _ _ _)
  | rotHoisted i rotidx k rkSet =>
    refine Sim.obj fun x hi => Sim.lift_bind fun H _ => ?_
    refine Sim.bind (RotateHoistedNew_sim g.ok (hsep hi) prm rotidx H rkSet π) ?_
    rintro h' ⟨ev, z⟩ ⟨e, c⟩ r
    exact Sim.pure (g.abs_new r _ _ _ _ _)
  | mulHoisted i j k0 k1 r =>
    refine Sim.obj fun x hi => Sim.obj fun y hj => Sim.lift_bind fun H0 _ => Sim.lift_bind fun H1 _ =>
      Sim.lift_bind fun rlk _ => ?_
    refine Sim.bind (MulRelinHoistedNew_sim g.ok (hsep hi) (hsep hj) prm H0 H1 rlk π) ?_
    rintro h' ⟨ev, z⟩ ⟨e, c⟩ r
    exact Sim.pure (g.abs_new r _ _ _ _ _)

/-! ## All calls -/

theorem newEvaluator_sim (h : Heap C) :
    Sim h Mem.newEvaluator (.ok (Ev.new : Ev C)) fun h' ev e =>
      PoolOk h' ev.toPools ∧ h'.viewEv ev = e := by
  unfold Mem.newEvaluator
  refine Sim.bind (k' := fun c => .ok (⟨KS.new, c, { RPoly.new C.nQ with isNTT := true }⟩ : Ev C))
    (newCiphertext_sim h C.lq []) ?_
  intro h1 a c n
  have fr : Fr ∅ ∅ ∅ h1 { h1 with
      poly := Function.update h1.poly h1.next { RPoly.new C.nQ with isNTT := true }
      next := h1.next + 1 } :=
    ⟨Nat.le_succ _, fun _ _ _ => rfl, fun _ _ _ => rfl, fun p hp _ =>
      Function.update_of_ne hp.ne _ _⟩
  have hp := fr.polys n.valid (by simp)
  refine ⟨⟨?_, ?_, Nat.lt_succ_self _, ?_⟩, ?_⟩
  · exact fr.valid n.valid (by simp)
  · exact fr.own n.valid (by simp) n.own
  · rw [hp]
    exact fun hq => absurd (n.valid.polys _ hq) (lt_irrefl _)
  · unfold Heap.viewEv
    rw [fr.viewCt n.valid (by simp) (by simp), n.view]
    simp

theorem run_sim (E : Encoder C Msg) (prm : CPar C) {strat : Strategy C Msg}
    (hs : ∀ t vs hs rl o, (strat t vs hs rl o).Ok) (sch : ℕ → Sched) {s : PClient C Msg}
    (g : s.Good h) : ∀ n, Sim h (pRun E prm strat sch n s) (vRun E prm strat sch n (s.abs h)) Rel
  | 0 => Sim.pure ⟨g, rfl⟩
  | n + 1 => by
    refine Sim.bind (run_sim E prm hs sch g n) ?_
    rintro h' s' _ ⟨g', rfl⟩
    exact step_sim E prm (hs _ _ _ _ _) (sch n) g'

theorem client_sim (E : Encoder C Msg) (prm : CPar C) {strat : Strategy C Msg}
    (hs : ∀ t vs hs rl o, (strat t vs hs rl o).Ok) (sch : ℕ → Sched) (rlks : List (RlkSet C)) (n : ℕ)
    (h : Heap C) :
    Sim h (pClient E prm strat sch rlks n) (vClient E prm strat sch rlks n) Rel := by
  unfold pClient vClient
  refine Sim.bind (k' := fun e => vRun E prm strat sch n ⟨e, CEnc.new prm, CDec.new prm, rlks, [], [], []⟩)
    (newEvaluator_sim h) ?_
  rintro h' ev _ ⟨ok, rfl⟩
  exact run_sim E prm hs sch (s := ⟨ev, CEnc.new prm, CDec.new prm, rlks, [], [], []⟩)
    ⟨ok, by simp, by simp, List.Pairwise.nil⟩ n

/-- Main theorem of the pointer model.  For every client program, all map orders and every initial
memory: the calls on the memory and the calls on values panic in the same way, or both return; then
the ciphertexts of the client contain the values computed by the calls on values, everything returned
is the same, and no two ciphertexts of the client have a map or a polynomial in common. -/
theorem C57_client (E : Encoder C Msg) (prm : CPar C) {strat : Strategy C Msg}
    (hs : ∀ t vs hs rl o, (strat t vs hs rl o).Ok) (sch : ℕ → Sched) (rlks : List (RlkSet C)) (n : ℕ)
    (h : Heap C) :
    (∀ e, pClient E prm strat sch rlks n h = .error e ↔ vClient E prm strat sch rlks n = .error e) ∧
    ∀ s h', pClient E prm strat sch rlks n h = .ok (s, h') →
      ∃ v, vClient E prm strat sch rlks n = .ok v ∧
        Mem.look s.objs h' = .ok (v.objs, h') ∧
        v.outs = s.outs ∧ v.hs = s.hs ∧ v.rlks = s.rlks ∧
        (∀ x ∈ s.objs, ∀ id id' p, (h'.ct (h'.cct x).1).get? id = some p →
          (h'.ct (h'.cct x).1).get? id' = some p → id = id') ∧
        s.objs.Pairwise fun x y => x ≠ y ∧ (h'.cct x).1 ≠ (h'.cct y).1 ∧
          ∀ id id' p, (h'.ct (h'.cct x).1).get? id = some p →
            (h'.ct (h'.cct y).1).get? id' ≠ some p := by
  have key := client_sim E prm hs sch rlks n h
  unfold Sim at key
  constructor
  · intro e
    constructor
    · intro he
      rw [he] at key
      revert key
      cases vClient E prm strat sch rlks n with
      | error e' => intro key; rw [show e = e' from key]
      | ok v => intro key; exact key.elim
    · intro he
      rw [he] at key
      revert key
      cases pClient E prm strat sch rlks n h with
      | error e' => intro key; rw [show e' = e from key]
      | ok v => intro key; exact key.elim
  · intro s h' hp
    rw [hp] at key
    revert key
    cases vClient E prm strat sch rlks n with
    | error e' => intro key; exact key.elim
    | ok v =>
      rintro ⟨g, rfl⟩
      refine ⟨_, rfl, rfl, rfl, rfl, rfl, fun x hx => (g.objs.own x hx).2, ?_⟩
      refine g.objs.apart.imp fun {x y} ha => ⟨ha.1, ha.2.1, fun id id' p h1 h2 => ?_⟩
      exact Set.disjoint_left.mp ha.2.2 ⟨id, h1⟩ ⟨id', h2⟩

/-- The ciphertext a call is documented to write. -/
def Cmd.dest : Cmd C Msg → Option ℕ
  | .setScale i _ | .pad i _ | .copy i _ | .drop i _ | .mulConst _ _ i | .rescale _ _ i
  | .encInto _ _ _ i | .encPtxt _ _ _ _ i | .partialDec i _ => some i
  | _ => none

theorem Go.bind_ok {α β : Type _} {x : Go α} {f : α → Go β} {b : β} (h : (x >>= f) = .ok b) :
    ∃ a, x = .ok a ∧ f a = .ok b := by
  cases x with
  | error e => cases h
  | ok a => exact ⟨a, rfl, h⟩

theorem vStep_frame (E : Encoder C Msg) (prm : CPar C) {c : Cmd C Msg} {π : Sched}
    {v v' : VClient C Msg} (hv : vStep E prm c π v = .ok v') {i : ℕ} (hi : i < v.objs.length)
    (hd : c.dest ≠ some i) : v'.objs[i]? = v.objs[i]? := by
  have app : ∀ z : CCt C, (v.objs ++ [z])[i]? = v.objs[i]? := fun z => List.getElem?_append_left hi
  have set : ∀ {j : ℕ} (z : CCt C), j ≠ i → (v.objs.set j z)[i]? = v.objs[i]? := fun z hj =>
    List.getElem?_set_ne hj
  cases c <;> simp only [Cmd.dest, ne_eq, Option.some.injEq] at hd <;> unfold vStep at hv <;>
    (repeat' (first | (obtain ⟨_, -, hv⟩ := Go.bind_ok hv))) <;> cases hv <;>
    first | rfl | exact app _ | exact set _ hd

theorem Mem.bind_ok {α β : Type} {x : HM C α} {f : α → HM C β} {b : β}
    (hb : (x >>= f) h = .ok (b, h')) : ∃ a h1, x h = .ok (a, h1) ∧ f a h1 = .ok (b, h') := by
  change (x h >>= fun p => f p.1 p.2) = _ at hb
  cases hx : x h with
  | error e => rw [hx] at hb; cases hb
  | ok a => rw [hx] at hb; exact ⟨a.1, a.2, rfl, hb⟩

theorem pStep_prefix (E : Encoder C Msg) (prm : CPar C) {c : Cmd C Msg} {π : Sched}
    {s s' : PClient C Msg} (hv : pStep E prm c π s h = .ok (s', h')) : s.objs <+: s'.objs := by
  cases c <;> unfold pStep at hv <;>
    (repeat' (first | (obtain ⟨_, _, -, hv⟩ := Mem.bind_ok hv))) <;> cases hv <;>
    first | exact List.prefix_rfl | exact List.prefix_append _ _

/-- No call changes a ciphertext of the client other than the one it is documented to write. -/
theorem C57_frame (E : Encoder C Msg) (prm : CPar C) {strat : Strategy C Msg}
    (hs : ∀ t vs hs rl o, (strat t vs hs rl o).Ok) (sch : ℕ → Sched) (rlks : List (RlkSet C)) (n : ℕ)
    {h h1 h2 : Heap C} {s s' : PClient C Msg} (hr : pClient E prm strat sch rlks n h = .ok (s, h1))
    {c : Cmd C Msg} (hc : c.Ok) (π : Sched) (hst : pStep E prm c π s h1 = .ok (s', h2)) :
    s.objs <+: s'.objs ∧ ∀ i x, s.objs[i]? = some x → c.dest ≠ some i → h2.view x = h1.view x := by
  have key := client_sim E prm hs sch rlks n h
  unfold Sim at key
  rw [hr] at key
  revert key
  cases vClient E prm strat sch rlks n with
  | error e' => intro key; exact key.elim
  | ok v =>
    rintro ⟨g, -⟩
    have st := step_sim E prm hc π g
    unfold Sim at st
    rw [hst] at st
    have pre := pStep_prefix E prm hst
    revert st
    cases hv : vStep E prm c π (s.abs h1) with
    | error e' => intro st; exact st.elim
    | ok v' =>
      rintro ⟨g', rfl⟩
      refine ⟨pre, fun i x hi hd => ?_⟩
      have hl : i < (s.abs h1).objs.length := by
        simpa [PClient.abs] using (List.getElem?_eq_some_iff.mp hi).1
      have := vStep_frame E prm hv hl hd
      have hi' : s'.objs[i]? = some x := by
        obtain ⟨t, ht⟩ := pre
        rw [← ht, List.getElem?_append_left (List.getElem?_eq_some_iff.mp hi).1, hi]
      simpa [PClient.abs, hi, hi'] using this

theorem RPoly.mulMont_mulMont {N : ℕ} {m : ℕ → ℕ} (l : ℕ) (a b b' c : RPoly N m) :
    RPoly.mulMontLvl l a b (RPoly.mulMontLvl l a b' c) = RPoly.mulMontLvl l a b c := by
  unfold RPoly.mulMontLvl RPoly.write
  congr 1
  funext i
  by_cases hi : i ≤ l <;> simp [hi]

/-- What the exclusion of the reserved id means: `EncryptMsg`, `EncryptMsgNewExpand` and `EncryptPtxt`
accept a public key with id `"0"`; the masks of both components then go to the same polynomial, the
second overwrites the first, and the result does not depend on the first half of the public key, the
only one that depends on the secret key. -/
theorem C57_reserved_id (enc : CEnc C) (rnd : EncRand C) (pt : RQ C) (ptScale : ℚ)
    {pk pk' : PublicKey C} (hid : pk.id = "0") (hid' : pk'.id = "0") (h1 : pk.value1 = pk'.value1)
    (y : ℕ) (h : Heap C) :
    Mem.EncryptPtxt enc rnd pt ptScale pk y h = Mem.EncryptPtxt enc rnd pt ptScale pk' y h := by
  have key : ∀ a, Mem.encrypt enc.poolQ rnd.u rnd.e0 rnd.e1 pt pk a h =
      Mem.encrypt enc.poolQ rnd.u rnd.e0 rnd.e1 pt pk' a h := by
    intro a
    unfold Mem.encrypt
    simp only [hid, hid', h1]
    cases h0 : (h.ct a).get? "0" with
    | none => simp [bind, StateT.bind, Mem.level, Mem.load, Except.bind, h0]
    | some p =>
      simp only [bind, StateT.bind, Mem.level, Mem.load, Mem.store, Except.bind, h0, pure, StateT.pure,
        Except.pure, Function.update_self, Function.update_idem, RPoly.mulMont_mulMont]
  simp only [Mem.EncryptPtxt, bind, StateT.bind, Mem.ctOf, Except.bind, key]

end MK
