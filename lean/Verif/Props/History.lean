import Verif.Props.EvRot

/-!
# C28: results of evaluator operations do not depend on earlier operations

`Ev.Reach` are the states of an evaluator after any sequence of completed calls with arbitrary
arguments; `RlkReach` are the states of a relinearization key set after any sequence of
registrations, removals and multiplications (which write to its hoisting pools).
-/

noncomputable section

namespace MK

open Finset

variable {C : Ctx}

/-! ## The invariant of the evaluator's memory, for arbitrary arguments -/

theorem Ct.Wf.set {ct : Ct C} {L : ℕ} {b : Bool} (h : ct.Wf L b) (id : String) {p : RQ C}
    (hl : p.len = L + 1) (hn : p.isNTT = b) : Ct.Wf (⟨ct.value.set id p⟩ : Ct C) L b := by
  refine ⟨h.wf.set _ _, ?_, fun id' p' hp' => ?_, fun id' p' hp' => ?_⟩
  · rw [GoMap.mem_keys_set]; exact Or.inr h.zero_mem
  · rw [GoMap.get?_set] at hp'
    split at hp'
    · cases hp'; exact hl
    · exact h.len _ _ hp'
  · rw [GoMap.get?_set] at hp'
    split at hp'
    · cases hp'; exact hn
    · exact h.ntt _ _ hp'

theorem pad_wf {pool : Ct C} {L : ℕ} (h : pool.Wf L false) (oEl o : List String) :
    Go.Post (pool.PadCiphertext oEl o) fun r => r.Wf L false := by
  obtain ⟨p, hp⟩ := GoMap.exists_get?_of_mem h.zero_mem
  unfold Ct.PadCiphertext
  simp only [GoMap.deref_of_get? hp, h.level, Go.ok_bind]
  refine Go.Post.bind' fun old => ?_
  refine Go.Post.pure ⟨Ct.padLoop_wf _ _ _ _ _ h.wf, ?_, fun id q hq => ?_, fun id q hq => ?_⟩
  · rw [← GoMap.has_iff, GoMap.has, Ct.padLoop_get?]
    split
    · rfl
    · rw [hp]; rfl
  · rw [Ct.padLoop_get?] at hq
    split at hq
    · cases hq; rfl
    · exact h.len _ _ hq
  · rw [Ct.padLoop_get?] at hq
    split at hq
    · cases hq; exact h.ntt "0" p hp
    · exact h.ntt _ _ hq

theorem mulHalf_wf {out : Ct C} {L : ℕ} (h : out.Wf L false) (ct0 : Ct C) (i : ℕ)
    (sel : Fin C.N → Prop) [DecidablePred sel] (c : ZMod (C.q i)) (u : String) :
    Go.Post (mulHalfStep ct0 i sel c u out) fun r => r.Wf L false := by
  unfold mulHalfStep
  refine Go.Post.bind' fun p0 => ?_
  refine Go.Post.bind (Q := fun p1 => p1.len = L + 1 ∧ p1.isNTT = false) (fun p1 hp1 => ?_)
    fun p1 hp1 => Go.Post.pure (h.set u hp1.1 hp1.2)
  cases hg : out.value.get? u with
  | none => simp [GoMap.deref, hg] at hp1
  | some q =>
    rw [GoMap.deref_of_get? hg] at hp1
    cases hp1
    exact ⟨h.len _ _ hg, h.ntt _ _ hg⟩

theorem Go.Post.forN {σ : Type _} {P : σ → Prop} {body : ℕ → σ → Go σ}
    (hb : ∀ i s, P s → Go.Post (body i s) P) (n : ℕ) (s : σ) (hs : P s) :
    Go.Post (forN n body s) P := by
  induction n with
  | zero => intro b hb'; cases hb'; exact hs
  | succ n ih => exact Go.Post.bind ih fun s' hs' => hb n s' hs'

theorem multByConst_wf (prm : CPar C) (ct0 : CCt C) (c : Const) {out : CCt C} {L : ℕ}
    (h : out.ct.Wf L false) (π : Sched) :
    Go.Post (prm.MultByConst ct0 c out π) fun r => r.ct.Wf L false := by
  unfold CPar.MultByConst
  refine Go.Post.bind' fun l0 => Go.Post.bind' fun l1 => ?_
  refine Go.Post.bind (Q := fun r : Ct C => r.Wf L false) (Go.Post.forN (fun i s hs => ?_) _ _ h)
    fun r hr => Go.Post.pure hr
  refine Go.Post.bind (Q := fun r : Ct C => r.Wf L false)
    (Go.Post.forEach (fun u s hs => mulHalf_wf hs _ _ _ _ _) _ _ hs) fun s' hs' => ?_
  exact Go.Post.forEach (fun u s hs => mulHalf_wf hs _ _ _ _ _) _ _ hs'

theorem alignOperands_wf (prm : CPar C) (c0 c1 : CCt C) {pool : Ct C} {L : ℕ}
    (h : pool.Wf L false) (s : ℚ) (π : Sched) :
    Go.Post (prm.alignOperands c0 c1 pool s π) fun r => r.1.Wf L false := by
  unfold CPar.alignOperands
  split
  · exact Go.Post.bind (multByConst_wf prm _ _ h _) fun t ht => Go.Post.pure ht
  · split
    · exact Go.Post.bind (multByConst_wf prm _ _ h _) fun t ht => Go.Post.pure ht
    · exact Go.Post.pure h

theorem evaluateInPlace_ok (prm : CPar C) {ev : Ev C} (h : ev.Ok) (c0 c1 out : CCt C)
    (f : PolyOp C) (π : Sched) :
    Go.Post (ev.evaluateInPlace prm c0 c1 out f π) fun r => r.1.Ok := by
  unfold Ev.evaluateInPlace
  refine Go.Post.bind' fun _ => Go.Post.bind' fun _ => Go.Post.bind' fun _ => ?_
  refine Go.Post.bind (pad_wf h.pool _ _) fun pool hp => ?_
  refine Go.Post.bind' fun _ => Go.Post.bind' fun _ => Go.Post.bind' fun _ => ?_
  dsimp only
  split <;>
  · refine Go.Post.bind' fun _ => ?_
    refine Go.Post.bind (alignOperands_wf prm c0 c1 hp _ _) fun r hr => ?_
    refine Go.Post.bind' fun _ => Go.Post.bind' fun _ => Go.Post.bind' fun _ => ?_
    refine Go.Post.bind' fun _ => Go.Post.bind' fun _ => Go.Post.pure ⟨h.ksw, hr⟩

theorem addNew_ok (prm : CPar C) {ev : Ev C} (h : ev.Ok) (a b : CCt C) (π : Sched) :
    Go.Post (ev.AddNew prm a b π) fun r => r.1.Ok :=
  Go.Post.bind' fun _ => evaluateInPlace_ok prm h _ _ _ _ _

theorem subNew_ok (prm : CPar C) {ev : Ev C} (h : ev.Ok) (a b : CCt C) (π : Sched) :
    Go.Post (ev.SubNew prm a b π) fun r => r.1.Ok := by
  refine Go.Post.bind' fun _ => Go.Post.bind (evaluateInPlace_ok prm h _ _ _ _ _) fun r hr => ?_
  refine Go.Post.bind' fun _ => Go.Post.bind' fun _ => Go.Post.bind' fun _ => ?_
  exact Go.Post.bind' fun _ => Go.Post.bind' fun _ => Go.Post.bind' fun _ => Go.Post.pure hr

theorem rescale_ok (prm : CPar C) {ev : Ev C} (h : ev.Ok) (ctIn : CCt C) (ms : ℚ) (out : CCt C)
    (same : Bool) (π : Sched) :
    Go.Post (ev.Rescale prm ctIn ms out same π) fun r => r.2.1.Ok := by
  unfold Ev.Rescale
  split
  · exact Go.Post.pure h
  split
  · exact Go.Post.pure h
  refine Go.Post.bind' fun l => ?_
  split
  · exact Go.Post.pure h
  refine Go.Post.bind' fun r => ?_
  dsimp only
  split
  · exact Go.Post.bind' fun s => Go.Post.pure ⟨h.ksw, h.pool⟩
  · split <;> exact Go.Post.bind' fun s => Go.Post.pure h

theorem rescaleNew_ok (prm : CPar C) {ev : Ev C} (h : ev.Ok) (ct : CCt C) (t : ℚ) (π : Sched) :
    Go.Post (ev.RescaleNew prm ct t π) fun r => r.2.1.Ok :=
  Go.Post.bind' fun _ => Go.Post.bind' fun _ => rescale_ok prm h _ _ _ _ _

theorem mulPtxtNew_ok (prm : CPar C) {ev : Ev C} (h : ev.Ok) (ct : CCt C) (pt : RQ C) (s : ℚ)
    (π : Sched) : Go.Post (ev.MulPtxtNew prm ct pt s π) fun r => r.1.Ok := by
  unfold Ev.MulPtxtNew
  refine Go.Post.bind (Q := fun r : Ev C × CCt C => r.1.Ok) ?_ fun r hr => ?_
  · exact Go.Post.bind' fun _ => Go.Post.bind' fun _ => Go.Post.bind' fun _ =>
      Go.Post.pure ⟨h.ksw, h.pool⟩
  · exact Go.Post.bind (rescale_ok prm hr _ _ _ _ _) fun r hr => Go.Post.pure hr

theorem mulRelinHoistedNew_ok (prm : CPar C) {ev : Ev C} (h : ev.Ok) (a b : CCt C)
    (h0 h1 : Option (HoistedCt C)) (rlk : RlkSet C) (π : Sched) :
    Go.Post (ev.MulRelinHoistedNew prm a b h0 h1 rlk π) fun r => r.1.Ok := by
  refine Go.Post.bind' fun out => ?_
  unfold Ev.mulRelinHoisted
  refine Go.Post.bind' fun _ => Go.Post.bind' fun _ => Go.Post.bind' fun _ => ?_
  dsimp only
  split <;>
  · refine Go.Post.bind' fun _ => ?_
    refine Go.Post.bind (mulCore_ok (fun L v id ks ct h => lastHoisted_ok _ L v id h ct) h.ksw
      _ _ _ _ _ _ _) fun r hr => ?_
    exact Go.Post.bind (rescale_ok (ev := { ev with ksw := r.1 }) prm ⟨hr, h.pool⟩ _ _ _ _ _)
      fun r hr => Go.Post.pure hr

theorem GoMap.has_set_of_has {V : Type _} {m : GoMap String V} {k : String} {v : V}
    (h : m.has k = true) (id : String) : (m.set k v).has id = m.has id := by
  by_cases hid : id = k
  · subst hid
    rw [h, GoMap.has_iff, GoMap.mem_keys_set]
    exact Or.inl rfl
  · unfold GoMap.has
    rw [GoMap.get?_set_of_ne _ _ hid]

theorem hoistInto_ok (L : ℕ) (op : Ct C) (o : List String) {ks : KS C} (h : ks.Ok)
    (pool : HoistedCt C) :
    Go.Post (hoistInto L op o (ks, pool)) fun r => r.1.Ok ∧ ∀ id, r.2.has id = pool.has id := by
  unfold hoistInto
  refine Go.Post.forEach (P := fun r : KS C × HoistedCt C => r.1.Ok ∧
    ∀ id, r.2.has id = pool.has id) (fun id s hs => ?_) _ _ ⟨h, fun _ => rfl⟩
  refine Go.Post.bind' fun a => ?_
  refine Go.Post.bind (Q := fun _ => s.2.has id = true) (fun ad had => ?_) fun ad had => ?_
  · cases hg : s.2.get? id with
    | none => simp [GoMap.deref, hg] at had
    | some q => unfold GoMap.has; rw [hg]; rfl
  · exact Go.Post.pure ⟨hs.1.decompose L a ad, fun id' =>
      (GoMap.has_set_of_has had id').trans (hs.2 id')⟩

/-- A multiplication changes only the contents of the hoisting pools. -/
theorem mulRelinNew_ok (prm : CPar C) {ev : Ev C} (h : ev.Ok) (a b : CCt C) (same : Bool)
    (rlk : RlkSet C) (π : Sched) :
    Go.Post (ev.MulRelinNew prm a b same rlk π) fun r => r.1.Ok ∧ r.2.1.value = rlk.value ∧
      (∀ id, r.2.1.pool0.has id = rlk.pool0.has id) ∧
      ∀ id, r.2.1.pool1.has id = rlk.pool1.has id := by
  unfold Ev.MulRelinNew
  split
  · refine Go.Post.bind' fun _ => Go.Post.bind' fun _ => ?_
    refine Go.Post.bind (hoistInto_ok _ _ _ h.ksw _) fun r hr => ?_
    exact Go.Post.bind (mulRelinHoistedNew_ok (ev := { ev with ksw := r.1 }) prm ⟨hr.1, h.pool⟩
      _ _ _ _ _ _) fun r' hr' => Go.Post.pure ⟨hr', rfl, hr.2, fun _ => rfl⟩
  · refine Go.Post.bind' fun _ => Go.Post.bind' fun _ => ?_
    refine Go.Post.bind' fun _ => ?_
    refine Go.Post.bind (hoistInto_ok _ _ _ h.ksw _) fun r hr => ?_
    refine Go.Post.bind' fun _ => ?_
    refine Go.Post.bind (hoistInto_ok _ _ _ hr.1 _) fun r1 hr1 => ?_
    exact Go.Post.bind (mulRelinHoistedNew_ok (ev := { ev with ksw := r1.1 }) prm ⟨hr1.1, h.pool⟩
      _ _ _ _ _ _) fun r' hr' => Go.Post.pure ⟨hr', rfl, hr.2, hr1.2⟩

theorem rotate_ok (crs : CRS C) {ks : KS C} (h : ks.Ok) (ctIn : Ct C) (rot : ℤ)
    (rkSet : RotationKeySet (RotKey C)) (ctOut : Ct C) (o : RotOrd) :
    Go.Post (ks.Rotate crs ctIn rot rkSet ctOut o) fun r => r.1.Ok :=
  rotCore_ok (fun L _ _ key c h => Go.Post.bind' fun a => Go.Post.pure
      ⟨h.ext L a key c, rfl, rfl⟩) _ h _ _ _ _ _

theorem rotateHoisted_ok (crs : CRS C) {ks : KS C} (h : ks.Ok) (ctIn : Ct C) (rot : ℤ)
    (H : HoistedCt C) (rkSet : RotationKeySet (RotKey C)) (ctOut : Ct C) (o : RotOrd) :
    Go.Post (ks.RotateHoisted crs ctIn rot H rkSet ctOut o) fun r => r.1.Ok :=
  rotCore_ok (fun L _ _ key c h => Go.Post.bind' fun a => Go.Post.pure
      ⟨h.extH L a key c, rfl, rfl⟩) _ h _ _ _ _ _

theorem rotBits_ok (prm : CPar C) (rkSet : RotationKeySet (RotKey C)) (π : Sched) (r : ℕ) :
    ∀ (k j : ℕ) (s : Ev C × Ct C × Ct C), s.1.Ok →
      Go.Post (Ev.rotBits prm rkSet π r k j s) fun s => s.1.Ok := by
  induction r using Nat.strong_induction_on with
  | _ r ih =>
    intro k j s hs
    rw [Ev.rotBits]
    split
    · dsimp only
      split
      · refine Go.Post.bind (rotate_ok _ hs.ksw _ _ _ _ _) fun r hr => Go.Post.bind' fun _ => ?_
        exact Go.Post.bind (Q := fun s : Ev C × Ct C × Ct C => s.1.Ok)
          (Go.Post.pure ⟨hr, hs.pool⟩) fun s hs => ih _ (by omega) _ _ s hs
      · exact ih _ (by omega) _ _ s hs
    · exact Go.Post.pure hs

theorem rotateNew_ok (prm : CPar C) {ev : Ev C} (h : ev.Ok) (ct : CCt C) (k : ℤ)
    (rkSet : RotationKeySet (RotKey C)) (π : Sched) :
    Go.Post (ev.RotateNew prm ct k rkSet π) fun r => r.1.Ok := by
  refine Go.Post.bind' fun _ => Go.Post.bind' fun _ => ?_
  unfold Ev.rotate
  dsimp only
  split
  · exact Go.Post.bind' fun _ => Go.Post.pure h
  split
  · exact Go.Post.bind (rotate_ok _ h.ksw _ _ _ _ _) fun r hr => Go.Post.pure ⟨hr, h.pool⟩
  · exact Go.Post.bind' fun _ => Go.Post.bind (rotBits_ok prm rkSet _ _ _ _ _ h)
      fun r hr => Go.Post.pure hr

theorem rotateHoistedNew_ok (prm : CPar C) {ev : Ev C} (h : ev.Ok) (ct : CCt C) (k : ℤ)
    (H : HoistedCt C) (rkSet : RotationKeySet (RotKey C)) (π : Sched) :
    Go.Post (ev.RotateHoistedNew prm ct k H rkSet π) fun r => r.1.Ok := by
  refine Go.Post.bind' fun _ => Go.Post.bind' fun _ => ?_
  unfold Ev.rotateHoisted
  dsimp only
  split
  · exact Go.Post.bind' fun _ => Go.Post.pure h
  split
  · exact Go.Post.bind (rotateHoisted_ok _ h.ksw _ _ _ _ _ _) fun r hr => Go.Post.pure ⟨hr, h.pool⟩
  · exact Go.Post.error

theorem conjugateNew_ok (prm : CPar C) {ev : Ev C} (h : ev.Ok) (ct : CCt C)
    (ckSet : KeySet (ConjKey C)) (π : Sched) :
    Go.Post (ev.ConjugateNew prm ct ckSet π) fun r => r.1.Ok := by
  refine Go.Post.bind' fun _ => Go.Post.bind' fun _ => ?_
  exact Go.Post.bind (conjugate_ok _ h.ksw _ _ _ _) fun r hr => Go.Post.pure ⟨hr, h.pool⟩

theorem hoistedForm_ok {ev : Ev C} (h : ev.Ok) (ct : CCt C) (π : Sched) :
    Go.Post (ev.HoistedForm ct π) fun r => r.1.Ok := by
  refine Go.Post.bind' fun _ => ?_
  refine Go.Post.bind (Q := fun r : KS C × HoistedCt C => r.1.Ok) (Go.Post.forEach
    (fun id s hs => ?_) _ _ h.ksw) fun r hr => Go.Post.pure ⟨hr, h.pool⟩
  exact Go.Post.bind' fun l => Go.Post.bind' fun a => Go.Post.bind' fun ad =>
    Go.Post.pure (hs.decompose l a ad)

/-! ## Reachable states -/

/-- The states an evaluator can be in: after `NewEvaluator` and any sequence of completed calls
of its exported methods, with any arguments (well-formed or not), any keys and any iteration
orders. -/
inductive Ev.Reach : Ev C → Prop
  | new : Reach Ev.new
  | add {ev ev'} (h : Reach ev) {prm a b π r} (e : ev.AddNew prm a b π = .ok (ev', r)) : Reach ev'
  | sub {ev ev'} (h : Reach ev) {prm a b π r} (e : ev.SubNew prm a b π = .ok (ev', r)) : Reach ev'
  | rescale {ev ev'} (h : Reach ev) {prm a t b same π err r}
      (e : ev.Rescale prm a t b same π = .ok (err, ev', r)) : Reach ev'
  | rescaleNew {ev ev'} (h : Reach ev) {prm a t π err r}
      (e : ev.RescaleNew prm a t π = .ok (err, ev', r)) : Reach ev'
  | mulPtxt {ev ev'} (h : Reach ev) {prm a pt s π r}
      (e : ev.MulPtxtNew prm a pt s π = .ok (ev', r)) : Reach ev'
  | mulRelin {ev ev'} (h : Reach ev) {prm a b same rlk π rlk' r}
      (e : ev.MulRelinNew prm a b same rlk π = .ok (ev', rlk', r)) : Reach ev'
  | mulRelinHoisted {ev ev'} (h : Reach ev) {prm a b h0 h1 rlk π r}
      (e : ev.MulRelinHoistedNew prm a b h0 h1 rlk π = .ok (ev', r)) : Reach ev'
  | rotate {ev ev'} (h : Reach ev) {prm a k rkSet π r}
      (e : ev.RotateNew prm a k rkSet π = .ok (ev', r)) : Reach ev'
  | rotateHoisted {ev ev'} (h : Reach ev) {prm a k H rkSet π r}
      (e : ev.RotateHoistedNew prm a k H rkSet π = .ok (ev', r)) : Reach ev'
  | conjugate {ev ev'} (h : Reach ev) {prm a ckSet π r}
      (e : ev.ConjugateNew prm a ckSet π = .ok (ev', r)) : Reach ev'
  | hoistedForm {ev ev'} (h : Reach ev) {a π r}
      (e : ev.HoistedForm a π = .ok (ev', r)) : Reach ev'

/-- **C28 (invariant).** The facts about an evaluator's memory used by its operations hold after
every history. -/
theorem C28_ev_reach_ok {ev : Ev C} (h : ev.Reach) : ev.Ok := by
  induction h with
  | new => exact Ev.new_ok
  | add _ e ih => exact addNew_ok _ ih _ _ _ _ e
  | sub _ e ih => exact subNew_ok _ ih _ _ _ _ e
  | rescale _ e ih => exact rescale_ok _ ih _ _ _ _ _ _ e
  | rescaleNew _ e ih => exact rescaleNew_ok _ ih _ _ _ _ e
  | mulPtxt _ e ih => exact mulPtxtNew_ok _ ih _ _ _ _ _ e
  | mulRelin _ e ih => exact (mulRelinNew_ok _ ih _ _ _ _ _ _ e).1
  | mulRelinHoisted _ e ih => exact mulRelinHoistedNew_ok _ ih _ _ _ _ _ _ _ e
  | rotate _ e ih => exact rotateNew_ok _ ih _ _ _ _ _ e
  | rotateHoisted _ e ih => exact rotateHoistedNew_ok _ ih _ _ _ _ _ _ e
  | conjugate _ e ih => exact conjugateNew_ok _ ih _ _ _ _ e
  | hoistedForm _ e ih => exact hoistedForm_ok ih _ _ _ e

/-- The states a relinearization key set can be in: after any sequence of registrations, removals
and multiplications (by any evaluator in a reachable state, with any operands). -/
inductive RlkReach : RlkSet C → Prop
  | new : RlkReach RelinKeySet.new
  | add {s} (h : RlkReach s) (k : RelinKey C) :
      RlkReach (s.add (fun k : RelinKey C => k.id) SwKey.new k)
  | del {s} (h : RlkReach s) (id : String) : RlkReach (s.del id)
  | mul {s s'} (h : RlkReach s) {ev ev'} (hev : Ev.Reach ev) {prm a b same π r}
      (e : ev.MulRelinNew prm a b same s π = .ok (ev', s', r)) : RlkReach s'

/-- Every registered key has hoisting pools. -/
theorem RlkReach.pools {s : RlkSet C} (h : RlkReach s) {id : String} {k : RelinKey C}
    (hk : s.value.get? id = some k) : s.pool0.has id = true ∧ s.pool1.has id = true := by
  induction h generalizing k with
  | new => simp [RelinKeySet.new, GoMap.empty_get?] at hk
  | add _ k' ih =>
    unfold RelinKeySet.add at hk ⊢
    dsimp only at hk ⊢
    by_cases hid : id = k'.id
    · subst hid
      unfold GoMap.has
      rw [GoMap.get?_set_self, GoMap.get?_set_self]
      exact ⟨rfl, rfl⟩
    · rw [GoMap.get?_set_of_ne _ _ hid] at hk
      unfold GoMap.has
      rw [GoMap.get?_set_of_ne _ _ hid, GoMap.get?_set_of_ne _ _ hid]
      exact ih hk
  | del _ id' ih =>
    unfold RelinKeySet.del at hk ⊢
    dsimp only at hk ⊢
    rw [GoMap.get?_del] at hk
    split at hk
    · cases hk
    · exact ih hk
  | mul _ hev e ih =>
    obtain ⟨_, h1, h2, h3⟩ := mulRelinNew_ok _ (C28_ev_reach_ok hev) _ _ _ _ _ _ e
    rw [h1] at hk
    rw [h2, h3]
    exact ih hk

theorem RlkReach.rlkFor {s : RlkSet C} (h : RlkReach s) {S : Finset String}
    {rk : String → RelinKey C} (hk : HasKeys s S rk) : RlkFor s S rk where
  keys := hk
  pool0 := fun id hid => (h.pools (hk id hid)).1
  pool1 := fun id hid => (h.pools (hk id hid)).2

/-! ## C28: the theorems -/

theorem Ev.Reach.binIn {prm : CPar C} {ev : Ev C} (h : ev.Reach) {ev' : Ev C} {a b : CCt C}
    {la lb : ℕ} (I : BinIn prm ev' a b la lb) : BinIn prm ev a b la lb :=
  { I with ok := C28_ev_reach_ok h }

/-- **C28 (`AddNew`, `SubNew`).** After any two histories and in any iteration orders the same
operands give the same sum and the same difference. -/
theorem C28_AddNew_SubNew (hC : C.Good) {prm : CPar C} {ev ev' : Ev C} (h : ev.Reach)
    (h' : ev'.Reach) {a b : CCt C} {la lb : ℕ} (I : BinIn prm Ev.new a b la lb) (π π' : Sched) :
    (∃ e1 e2 r1 r2, ev.AddNew prm a b π = .ok (e1, r1) ∧ ev'.AddNew prm a b π' = .ok (e2, r2) ∧
      r1.ct.Same r2.ct ∧ r1.scale = r2.scale) ∧
    (∃ e1 e2 r1 r2, ev.SubNew prm a b π = .ok (e1, r1) ∧ ev'.SubNew prm a b π' = .ok (e2, r2) ∧
      r1.ct.Same r2.ct ∧ r1.scale = r2.scale) := by
  obtain ⟨_, r1, e1, _, c1⟩ := addNew_spec hC (h.binIn I) π
  obtain ⟨_, r2, e2, _, c2⟩ := addNew_spec hC (h'.binIn I) π'
  obtain ⟨_, r3, e3, _, c3⟩ := subNew_spec hC (h.binIn I) π
  obtain ⟨_, r4, e4, _, c4⟩ := subNew_spec hC (h'.binIn I) π'
  exact ⟨⟨_, _, _, _, e1, e2, c1.same c2, rfl⟩, ⟨_, _, _, _, e3, e4, c3.same c4, rfl⟩⟩

/-- **C28 (`MulPtxtNew`).** -/
theorem C28_MulPtxtNew (hC : C.Good) {prm : CPar C} {ev ev' : Ev C} {ct : CCt C} {L n : ℕ}
    (w : ct.ct.Wf L false) (pt : RQ C) (ptScale : ℚ)
    (hn : RescaleBy prm.fl C.q prm.scale (prm.fl.rnd (ct.scale * ptScale)) L n) (π π' : Sched) :
    ∃ e1 e2 r1 r2, ev.MulPtxtNew prm ct pt ptScale π = .ok (e1, r1) ∧
      ev'.MulPtxtNew prm ct pt ptScale π' = .ok (e2, r2) ∧
      r1.ct.Same r2.ct ∧ r1.scale = r2.scale := by
  have key : ∀ (ev : Ev C) (π : Sched), ∃ e1 r, ev.MulPtxtNew prm ct pt ptScale π = .ok (e1,
        ⟨r, scaleSeq prm.fl C.q L (prm.fl.rnd (ct.scale * ptScale)) n⟩) ∧
      CtIs r (L - n) (insert "0" ct.ct.parties) (fun id => divSeq (fun i =>
        ((⟨ct.ct.rowsOf id i⟩ : Nega C.N (ZMod (C.q i))) * pt.elem i).coeff) L n) := by
    intro ev π
    obtain ⟨pool, r0, e0, hr0⟩ := mulPtxtCore_spec hC (prm := prm) (ev := ev) w pt ptScale (π.sub 0)
    obtain ⟨err, pool', r, e1, hr, _⟩ := rescaleSelf_spec (prm := prm) (ms := prm.scale)
      (ct := ⟨r0, prm.fl.rnd (ct.scale * ptScale)⟩) (ev := { ev with polyQ := pool })
      (mem_insert_self _ _) hr0 hn (π.sub 1)
    refine ⟨{ ev with polyQ := pool' }, r, ?_, hr⟩
    unfold Ev.MulPtxtNew
    simp only [e0, Go.ok_bind, e1, Go.pure_eq]
  obtain ⟨e1, r1, q1, c1⟩ := key ev π
  obtain ⟨e2, r2, q2, c2⟩ := key ev' π'
  exact ⟨e1, e2, _, _, q1, q2, c1.same c2, rfl⟩

/-- **C28 (`MulRelinNew`).** After any two histories of two evaluators and of two key sets holding
the same keys of the participants, the same operands give the same product: neither the
evaluator's scratch memory nor the hoisting pools of the key set matter. -/
theorem C28_MulRelinNew (hC : C.Good) {prm : CPar C} {ev ev' : Ev C} (h : ev.Reach)
    (h' : ev'.Reach) {a b : CCt C} {la lb n : ℕ} (same : Bool) (hsame : same = true → a = b)
    (wa : a.ct.Wf la false) (wb : b.ct.Wf lb false) (hla : la < C.nQ) (hlb : lb < C.nQ)
    {u : SwKey C} (hu : prm.crs.get? (-1) = some u) {rlk rlk' : RlkSet C} (hr : RlkReach rlk)
    (hr' : RlkReach rlk') {rk : String → RelinKey C}
    (hrk : HasKeys rlk (a.ct.parties ∪ b.ct.parties) rk)
    (hrk' : HasKeys rlk' (a.ct.parties ∪ b.ct.parties) rk)
    (hn : RescaleBy prm.fl C.q prm.scale (prm.fl.rnd (a.scale * b.scale)) (min la lb) n)
    (π π' : Sched) :
    ∃ e1 e2 s1 s2 r1 r2, ev.MulRelinNew prm a b same rlk π = .ok (e1, s1, r1) ∧
      ev'.MulRelinNew prm a b same rlk' π' = .ok (e2, s2, r2) ∧
      r1.ct.Same r2.ct ∧ r1.scale = r2.scale := by
  obtain ⟨e1, s1, r1, q1, _, _, c1⟩ := mulRelinNew_spec hC (C28_ev_reach_ok h) same hsame wa wb hla hlb
    hu (hr.rlkFor hrk) hn π
  obtain ⟨e2, s2, r2, q2, _, _, c2⟩ := mulRelinNew_spec hC (C28_ev_reach_ok h') same hsame wa wb hla
    hlb hu (hr'.rlkFor hrk') hn π'
  exact ⟨e1, e2, s1, s2, _, _, q1, q2, c1.same c2, rfl⟩

/-- **C28 (`RotateNew`).** -/
theorem C28_RotateNew {logN : ℕ} (hN : C.N = 2 ^ logN) (hlog : 1 ≤ logN) (hC : C.Good)
    {prm : CPar C} {ev ev' : Ev C} (h : ev.Reach) (h' : ev'.Reach) {ct : CCt C} {L : ℕ}
    (hL : L < C.nQ) (w : ct.ct.Wf L false) (k : ℤ) {rkSet : RotationKeySet (RotKey C)}
    {rk : ℕ → String → RotKey C} {a : ℕ → SwKey C}
    (hk : ∀ idx, rotNeeds prm.crs (slotIdx C.N k) idx →
      KeysAt prm.crs rkSet ct.ct.parties rk a idx) (π π' : Sched) :
    ∃ e1 e2 r1 r2, ev.RotateNew prm ct k rkSet π = .ok (e1, r1) ∧
      ev'.RotateNew prm ct k rkSet π' = .ok (e2, r2) ∧ r1.ct.Same r2.ct ∧ r1.scale = r2.scale := by
  obtain ⟨e1, r1, q1, _, c1⟩ := rotateNew_spec hN hlog hC (C28_ev_reach_ok h) hL w k hk π
  obtain ⟨e2, r2, q2, _, c2⟩ := rotateNew_spec hN hlog hC (C28_ev_reach_ok h') hL w k hk π'
  exact ⟨e1, e2, _, _, q1, q2, c1.same c2, rfl⟩

/-- **C28 (`ConjugateNew`).** -/
theorem C28_ConjugateNew {logN : ℕ} (hN : C.N = 2 ^ logN) (hC : C.Good) {prm : CPar C}
    {ev ev' : Ev C} (h : ev.Reach) (h' : ev'.Reach) {ct : CCt C} (w : ct.ct.Wf C.lq false)
    {ckSet : KeySet (ConjKey C)} {ck : String → ConjKey C} {u : SwKey C}
    (hck : ∀ id ∈ ct.ct.parties, ckSet.get id = .ok (ck id)) (hu : prm.crs.get? (-2) = some u)
    (π π' : Sched) :
    ∃ e1 e2 r1 r2, ev.ConjugateNew prm ct ckSet π = .ok (e1, r1) ∧
      ev'.ConjugateNew prm ct ckSet π' = .ok (e2, r2) ∧
      r1.ct.Same r2.ct ∧ r1.scale = r2.scale := by
  have key : ∀ (ev : Ev C) (π : Sched), ev.Ok → ∃ e1 r F, ev.ConjugateNew prm ct ckSet π =
      .ok (e1, ⟨r, ct.scale⟩) ∧ CtIs r C.lq (insert "0" ct.ct.parties) F ∧
        F = fun id i => (conjOut C C.lq ct.ct.parties ct.ct.comp (fun id => (ck id).value.kv) u.kv
          id i).coeff := by
    intro ev π hok
    obtain ⟨ids, e0, _, m0⟩ := ct.ct.IDSet_parties (π.isOrder 0 ct.ct.value)
    have hout := new_ctIs' (C := C) C.lq (π.isOrder 1 ids) m0
    obtain ⟨k1, r1, e1, -, c1⟩ := conjugate_spec hN hC le_rfl w (hout.toWf (mem_insert_self _ _))
      (fun id => by rw [hout.mem, w.comps.mem]) hck hu ((π.sub 2).rotOrd_ok w.wf) ev.ksw hok.ksw
    refine ⟨{ ev with ksw := k1 }, r1, _, ?_, c1, rfl⟩
    unfold Ev.ConjugateNew
    simp only [e0, w.level, Go.ok_bind, CCt.new, e1]
    rfl
  obtain ⟨e1, r1, F, q1, c1, hF⟩ := key ev π (C28_ev_reach_ok h)
  obtain ⟨e2, r2, F', q2, c2, hF'⟩ := key ev' π' (C28_ev_reach_ok h')
  subst hF
  subst hF'
  exact ⟨e1, e2, _, _, q1, q2, c1.same c2, rfl⟩

end MK
