import Verif.KsMemSim
import Verif.HeapSim

/-!
# Key switching on memory: the relation to the value model

`KRel ka out m0 (ks, ct) m`: the memory `m`, reached from `m0`, holds the scratch `ks` and the
output `ct`, and everything that is neither scratch nor output is as in `m0`.
-/

noncomputable section

namespace MK

open PMem

variable {C : Ctx}

/-- The output ciphertext: a Go map with one cell per component, none of them scratch. -/
structure OutOk (ka : KSA) (out : CtA) : Prop where
  wf : out.WF
  inj : ∀ {i j : String} {p : Ptr}, out.get? i = some p → out.get? j = some p → i = j
  disj : ∀ {i : String} {p : Ptr}, out.get? i = some p → ¬ ka.Has p.o

/-- Objects that are neither scratch nor part of the output. -/
def Safe (ka : KSA) (out : CtA) (o : ℕ) : Prop :=
  ¬ ka.Has o ∧ ∀ (i : String) (p : Ptr), out.get? i = some p → p.o ≠ o

/-- See the head of the file. -/
structure KRel (ka : KSA) (out : CtA) (m0 : PMem C) (s : KS C × Ct C) (m : PMem C) : Prop where
  ks : ka.read m = s.1
  ct : out.read m = s.2
  next : m.next = m0.next
  frame : ∀ p : Ptr, Safe ka out p.o → m.val p = m0.val p

/-- The two programs panic alike or end in related states. -/
def Runs {σ τ : Type _} (R : σ → τ → Prop) (x : Go σ) (y : Go τ) : Prop :=
  match x, y with
  | .ok s, .ok m => R s m
  | .error e, .error e' => e = e'
  | _, _ => False

namespace Runs

variable {σ τ σ' τ' : Type _} {R : σ → τ → Prop} {R' : σ' → τ' → Prop}

theorem pure {s : σ} {m : τ} (h : R s m) : Runs R (Pure.pure s) (Pure.pure m) := h

theorem bind {x : Go σ} {y : Go τ} (h : Runs R x y) {f : σ → Go σ'} {g : τ → Go τ'}
    (hk : ∀ s m, R s m → Runs R' (f s) (g m)) : Runs R' (x >>= f) (y >>= g) := by
  unfold Runs at h
  cases x with
  | error e => cases y with
    | error e' => exact h
    | ok m => exact h.elim
  | ok s => cases y with
    | error e' => exact h.elim
    | ok m => exact hk s m h

theorem mono {R₁ : σ → τ → Prop} {x : Go σ} {y : Go τ} (h : Runs R x y)
    (hk : ∀ s m, R s m → R₁ s m) : Runs R₁ x y := by
  unfold Runs at h ⊢
  cases x with
  | error e => cases y with
    | error e' => exact h
    | ok m => exact h.elim
  | ok s => cases y with
    | error e' => exact h.elim
    | ok m => exact hk s m h

theorem map {x : Go σ} {y : Go τ} (h : Runs R x y) {R₁ : σ' → τ → Prop} {f : σ → σ'}
    (hk : ∀ s m, R s m → R₁ (f s) m) : Runs R₁ (x >>= fun s => Pure.pure (f s)) y := by
  unfold Runs at h
  cases x with
  | error e => cases y with
    | error e' => exact h
    | ok m => exact h.elim
  | ok s => cases y with
    | error e' => exact h.elim
    | ok m => exact hk s m h

theorem forEach {α : Type _} {f : α → σ → Go σ} {g : α → τ → Go τ} (o : List α)
    (hk : ∀ a s m, R s m → Runs R (f a s) (g a m)) {s : σ} {m : τ} (h : R s m) :
    Runs R (MK.forEach o f s) (MK.forEach o g m) := by
  induction o generalizing s m with
  | nil => exact h
  | cons a o ih => exact (hk a s m h).bind fun s m h => ih h

theorem ite {p : Prop} [Decidable p] {x x' : Go σ} {y y' : Go τ} (h : p → Runs R x y)
    (h' : ¬ p → Runs R x' y') : Runs R (if p then x else x') (if p then y else y') := by
  split
  · exact h ‹_›
  · exact h' ‹_›

/-- Looking up the same key of a map of addresses and of the map of their contents. -/
theorem deref {K V W : Type} [DecidableEq K] {g : GoMap K V} {F : V → W} {k : K}
    {f : W → Go σ} {h : V → Go τ} (hk : ∀ v, g.get? k = some v → Runs R (f (F v)) (h v)) :
    Runs R ((g.mapVals fun _ => F).deref k >>= f) (g.deref k >>= h) := by
  unfold GoMap.deref
  rw [GoMap.get?_mapVals]
  cases hg : g.get? k with
  | none => exact rfl
  | some v => exact hk v hg

/-- The same computation without effects on both sides. -/
theorem same {β : Type _} (x : Go β) {f : β → Go σ} {g : β → Go τ}
    (hk : ∀ b, Runs R (f b) (g b)) : Runs R (x >>= f) (x >>= g) := by
  cases x with
  | error e => exact rfl
  | ok b => exact hk b

end Runs

theorem CtA.read_wr_of_not {out : CtA} (m : PMem C) (hw : out.WF) {p : Ptr} (f : QP C → QP C)
    (h : ∀ (i : String) (r : Ptr), out.get? i = some r → r ≠ p) :
    out.read (m.wr p f) = out.read m := by
  unfold CtA.read
  congr 1
  exact GoMap.mapVals_congr hw fun i r hr => m.q_wr_of_ne f (h i r hr)

theorem CtA.read_setObj_of_not {out : CtA} (m : PMem C) (hw : out.WF) {o : ℕ} (v : SwKey C)
    (h : ∀ (i : String) (r : Ptr), out.get? i = some r → r.o ≠ o) :
    out.read (m.setObj o v) = out.read m := by
  unfold CtA.read
  congr 1
  exact GoMap.mapVals_congr hw fun i r hr => m.q_setObj_of_ne v (h i r hr)

theorem CtA.read_wr {ka : KSA} {out : CtA} (hO : OutOk ka out) (m : PMem C) {id : String} {p : Ptr}
    (hp : out.get? id = some p) (f : RQ C → RQ C) :
    out.read (m.wrQ p f) = ⟨(out.read m).value.set id (f (m.q p))⟩ := by
  have hh : (out.read m).value.has id = true := by
    rw [GoMap.has_iff]
    unfold CtA.read
    rw [GoMap.keys_mapVals]
    exact GoMap.mem_keys_of_get? hp
  unfold CtA.read at hh ⊢
  congr 1
  unfold GoMap.set
  rw [if_pos hh]
  unfold GoMap.mapVals
  simp only [List.map_map]
  congr 1
  refine List.map_congr_left fun e he => ?_
  have hg := GoMap.get?_of_mem_entries hO.wf he
  by_cases h1 : e.1 = id
  · have : e.2 = p := by rw [h1, hp] at hg; exact (Option.some.inj hg).symm
    simp [h1, this, m.q_wrQ_self]
  · have : e.2 ≠ p := fun h2 => h1 (hO.inj (h2 ▸ hg) hp)
    simp [h1, m.q_wrQ_of_ne f this]

namespace KRel

variable {ka : KSA} {out : CtA} {m0 m : PMem C} {ks : KS C} {ct : Ct C}

theorem refl (ka : KSA) (out : CtA) (m : PMem C) :
    KRel ka out m (ka.read m, out.read m) m := ⟨rfl, rfl, rfl, fun _ _ => rfl⟩

theorem q (h : KRel ka out m0 (ks, ct) m) {p : Ptr} (hp : Safe ka out p.o) : m.q p = m0.q p := by
  unfold PMem.q; rw [h.frame p hp]

theorem obj (h : KRel ka out m0 (ks, ct) m) {o : ℕ} (hp : Safe ka out o) : m.obj o = m0.obj o :=
  funext fun k => h.frame ⟨o, k⟩ hp

/-- A write to the scratch. -/
theorem scr (h : KRel ka out m0 (ks, ct) m) (hO : OutOk ka out) {p : Ptr} (hp : ka.Has p.o)
    (f : QP C → QP C) : KRel ka out m0 (ka.read (m.wr p f), ct) (m.wr p f) where
  ks := rfl
  ct := by
    rw [CtA.read_wr_of_not m hO.wf f]
    · exact h.ct
    · rintro i r hr rfl; exact hO.disj hr hp
  next := h.next
  frame := fun r hr => by
    rw [m.wr_val_of_ne f (by rintro rfl; exact hr.1 hp)]
    exact h.frame r hr

/-- A write of a whole object of the scratch. -/
theorem scrObj (h : KRel ka out m0 (ks, ct) m) (hO : OutOk ka out) {o : ℕ} (hp : ka.Has o)
    (v : SwKey C) : KRel ka out m0 (ka.read (m.setObj o v), ct) (m.setObj o v) where
  ks := rfl
  ct := by
    rw [CtA.read_setObj_of_not m hO.wf v]
    · exact h.ct
    · rintro i r hr rfl; exact hO.disj hr hp
  next := h.next
  frame := fun r hr => by
    rw [m.setObj_val_of_ne v (by rintro rfl; exact hr.1 hp)]
    exact h.frame r hr

/-- A write to a component of the output. -/
theorem store (h : KRel ka out m0 (ks, ct) m) (hO : OutOk ka out) {id : String} {p : Ptr}
    (hp : out.get? id = some p) (f : RQ C → RQ C) :
    KRel ka out m0 (ks, ⟨ct.value.set id (f (m.q p))⟩) (m.wrQ p f) where
  ks := by rw [PMem.wrQ, ka.read_wr_of_not m (hO.disj hp)]; exact h.ks
  ct := by rw [CtA.read_wr hO m hp, h.ct]
  next := h.next
  frame := fun r hr => by
    rw [m.val_wrQ_of_ne f (ptr_ne fun e => hr.2 id p hp e.symm)]
    exact h.frame r hr

theorem has_poolInv (ka : KSA) : ka.Has ka.poolInv.o := ⟨le_rfl, by simp [KSA.poolInv]⟩
theorem has_pool0 (ka : KSA) : ka.Has ka.pool0.o := by simp [KSA.Has, KSA.pool0]
theorem has_pool1 (ka : KSA) : ka.Has ka.pool1.o := by simp [KSA.Has, KSA.pool1]
theorem has_pq0 (ka : KSA) : ka.Has ka.pq0.o := by simp [KSA.Has, KSA.pq0]
theorem has_pq1 (ka : KSA) : ka.Has ka.pq1.o := by simp [KSA.Has, KSA.pq1]
theorem has_pq2 (ka : KSA) : ka.Has ka.pq2.o := by simp [KSA.Has, KSA.pq2]
theorem has_swk1 (ka : KSA) : ka.Has ka.swk1 := by simp [KSA.Has, KSA.swk1]
theorem has_swk2 (ka : KSA) : ka.Has ka.swk2 := by simp [KSA.Has, KSA.swk2]
theorem has_swk3 (ka : KSA) : ka.Has ka.swk3 := by simp [KSA.Has, KSA.swk3]

theorem free_pq0 (ka : KSA) : ka.Free ka.pq0.o := by simp [KSA.Free, KSA.pq0]
theorem free_pq1 (ka : KSA) : ka.Free ka.pq1.o := by simp [KSA.Free, KSA.pq1]
theorem free_pq2 (ka : KSA) : ka.Free ka.pq2.o := by simp [KSA.Free, KSA.pq2]
theorem free_swk1 (ka : KSA) : ka.Free ka.swk1 := by simp [KSA.Free, KSA.swk1]
theorem free_swk2 (ka : KSA) : ka.Free ka.swk2 := by simp [KSA.Free, KSA.swk2]
theorem free_swk3 (ka : KSA) : ka.Free ka.swk3 := by simp [KSA.Free, KSA.swk3]

section reads
variable (h : KRel ka out m0 (ks, ct) m)
include h
theorem q0 : m.q ka.pq0 = ks.pq0 := congrArg KS.pq0 h.ks
theorem q1 : m.q ka.pq1 = ks.pq1 := congrArg KS.pq1 h.ks
theorem q2 : m.q ka.pq2 = ks.pq2 := congrArg KS.pq2 h.ks
theorem s1 : m.obj ka.swk1 = ks.swk1 := congrArg KS.swk1 h.ks
theorem s2 : m.obj ka.swk2 = ks.swk2 := congrArg KS.swk2 h.ks
theorem s3 : m.obj ka.swk3 = ks.swk3 := congrArg KS.swk3 h.ks
end reads

section writes
variable (h : KRel ka out m0 (ks, ct) m) (hO : OutOk ka out)
include h hO

theorem w0 (f : RQ C → RQ C) :
    KRel ka out m0 ({ ks with pq0 := f ks.pq0 }, ct) (m.wrQ ka.pq0 f) := by
  have := h.scr hO (has_pq0 ka) fun x => { x with Q := f x.Q }
  rwa [← PMem.wrQ, ka.read_wr_pq0, h.q0, h.ks] at this

theorem w1 (f : RQ C → RQ C) :
    KRel ka out m0 ({ ks with pq1 := f ks.pq1 }, ct) (m.wrQ ka.pq1 f) := by
  have := h.scr hO (has_pq1 ka) fun x => { x with Q := f x.Q }
  rwa [← PMem.wrQ, ka.read_wr_pq1, h.q1, h.ks] at this

theorem w2 (f : RQ C → RQ C) :
    KRel ka out m0 ({ ks with pq2 := f ks.pq2 }, ct) (m.wrQ ka.pq2 f) := by
  have := h.scr hO (has_pq2 ka) fun x => { x with Q := f x.Q }
  rwa [← PMem.wrQ, ka.read_wr_pq2, h.q2, h.ks] at this

theorem wI (f : RQ C → RQ C) :
    KRel ka out m0 ({ ks with poolInv := f ks.poolInv }, ct) (m.wrQ ka.poolInv f) := by
  have := h.scr hO (has_poolInv ka) fun x => { x with Q := f x.Q }
  rwa [← PMem.wrQ, ka.read_wr_poolInv, h.ks, show m.q ka.poolInv = ks.poolInv from
    congrArg KS.poolInv h.ks] at this

theorem wP0 (v : QP C) : KRel ka out m0 ({ ks with pool0 := v }, ct) (m.wr ka.pool0 fun _ => v) := by
  have := h.scr hO (has_pool0 ka) fun _ => v
  rwa [ka.read_wr_pool0, h.ks] at this

theorem wP1 (v : QP C) : KRel ka out m0 ({ ks with pool1 := v }, ct) (m.wr ka.pool1 fun _ => v) := by
  have := h.scr hO (has_pool1 ka) fun _ => v
  rwa [ka.read_wr_pool1, h.ks] at this

theorem o1 (v : SwKey C) : KRel ka out m0 ({ ks with swk1 := v }, ct) (m.setObj ka.swk1 v) := by
  have := h.scrObj hO (has_swk1 ka) v
  rwa [ka.read_setObj_swk1, h.ks] at this

theorem o2 (v : SwKey C) : KRel ka out m0 ({ ks with swk2 := v }, ct) (m.setObj ka.swk2 v) := by
  have := h.scrObj hO (has_swk2 ka) v
  rwa [ka.read_setObj_swk2, h.ks] at this

theorem o3 (v : SwKey C) : KRel ka out m0 ({ ks with swk3 := v }, ct) (m.setObj ka.swk3 v) := by
  have := h.scrObj hO (has_swk3 ka) v
  rwa [ka.read_setObj_swk3, h.ks] at this

/-- `Decompose` into `swkPool3`. -/
theorem dec3 (level : ℕ) {a : Ptr} (ha : a.o ≠ ka.base + 8) :
    KRel ka out m0 ({ (ks.Decompose level (m.q a) ks.swk3).1 with
      swk3 := (ks.Decompose level (m.q a) ks.swk3).2 }, ct) (ka.DecomposeM level a ka.swk3 m) := by
  rw [ka.DecomposeM_eq level m (show a.o ≠ ka.swk3 from ha) (by simp [KSA.swk3]), h.ks, h.s3]
  have := (h.wI hO fun _ => (ks.Decompose level (m.q a) ks.swk3).1.poolInv).o3 hO
    (ks.Decompose level (m.q a) ks.swk3).2
  rw [KS.Decompose_fst]
  exact this

/-- `ExternalProduct` without its last assignment. -/
theorem extScr (level : ℕ) (a : RQ C) (bg : SwKey C) (c : RQ C) :
    KRel ka out m0 ((ks.ExternalProduct level a bg c).1, ct)
      (((m.wrQ ka.poolInv fun _ => (ks.ExternalProduct level a bg c).1.poolInv).wr ka.pool0
        fun _ => (ks.ExternalProduct level a bg c).1.pool0).wr ka.pool1
        fun _ => (ks.ExternalProduct level a bg c).1.pool1) := by
  have := ((h.wI hO fun _ => (ks.ExternalProduct level a bg c).1.poolInv).wP0 hO
    (ks.ExternalProduct level a bg c).1.pool0).wP1 hO (ks.ExternalProduct level a bg c).1.pool1
  rw [KS.ExternalProduct_fst]
  exact this

theorem ext0 (level : ℕ) {a : Ptr} {bg : ℕ} (ha : ka.Free a.o) (hb : ka.Free bg) :
    KRel ka out m0 ({ (ks.ExternalProduct level (m.q a) (m.obj bg) ks.pq0).1 with
      pq0 := (ks.ExternalProduct level (m.q a) (m.obj bg) ks.pq0).2 }, ct)
      (ka.ExternalProductM level a bg ka.pq0 m) := by
  rw [ka.ExternalProductM_eq level m ha hb (free_pq0 ka), h.ks, h.q0]
  exact (h.extScr hO level (m.q a) (m.obj bg) ks.pq0).w0 hO fun _ => _

theorem ext1 (level : ℕ) {a : Ptr} {bg : ℕ} (ha : ka.Free a.o) (hb : ka.Free bg) :
    KRel ka out m0 ({ (ks.ExternalProduct level (m.q a) (m.obj bg) ks.pq1).1 with
      pq1 := (ks.ExternalProduct level (m.q a) (m.obj bg) ks.pq1).2 }, ct)
      (ka.ExternalProductM level a bg ka.pq1 m) := by
  rw [ka.ExternalProductM_eq level m ha hb (free_pq1 ka), h.ks, h.q1]
  exact (h.extScr hO level (m.q a) (m.obj bg) ks.pq1).w1 hO fun _ => _

theorem ext2 (level : ℕ) {a : Ptr} {bg : ℕ} (ha : ka.Free a.o) (hb : ka.Free bg) :
    KRel ka out m0 ({ (ks.ExternalProduct level (m.q a) (m.obj bg) ks.pq2).1 with
      pq2 := (ks.ExternalProduct level (m.q a) (m.obj bg) ks.pq2).2 }, ct)
      (ka.ExternalProductM level a bg ka.pq2 m) := by
  rw [ka.ExternalProductM_eq level m ha hb (free_pq2 ka), h.ks, h.q2]
  exact (h.extScr hO level (m.q a) (m.obj bg) ks.pq2).w2 hO fun _ => _

theorem extO (level : ℕ) {a : Ptr} {bg : ℕ} {id : String} {p : Ptr} (hp : out.get? id = some p)
    (ha : ka.Free a.o) (hb : ka.Free bg) :
    KRel ka out m0 ((ks.ExternalProduct level (m.q a) (m.obj bg) (m.q p)).1,
      ⟨ct.value.set id (ks.ExternalProduct level (m.q a) (m.obj bg) (m.q p)).2⟩)
      (ka.ExternalProductM level a bg p m) := by
  rw [ka.ExternalProductM_eq level m ha hb (.of_not (hO.disj hp)), h.ks]
  exact (h.extScr hO level (m.q a) (m.obj bg) (m.q p)).store hO hp fun _ => _

theorem exh0 (level : ℕ) {d bg : ℕ} (ha : ka.Free d) (hb : ka.Free bg) :
    KRel ka out m0 ({ (ks.ExternalProductHoisted level (m.obj d) (m.obj bg) ks.pq0).1 with
      pq0 := (ks.ExternalProductHoisted level (m.obj d) (m.obj bg) ks.pq0).2 }, ct)
      (ka.ExternalProductHoistedM level d bg ka.pq0 m) := by
  rw [ka.ExternalProductHoistedM_eq level m ha hb (free_pq0 ka), h.ks, h.q0]
  exact (h.wP1 hO _).w0 hO fun _ => _

theorem exh1 (level : ℕ) {d bg : ℕ} (ha : ka.Free d) (hb : ka.Free bg) :
    KRel ka out m0 ({ (ks.ExternalProductHoisted level (m.obj d) (m.obj bg) ks.pq1).1 with
      pq1 := (ks.ExternalProductHoisted level (m.obj d) (m.obj bg) ks.pq1).2 }, ct)
      (ka.ExternalProductHoistedM level d bg ka.pq1 m) := by
  rw [ka.ExternalProductHoistedM_eq level m ha hb (free_pq1 ka), h.ks, h.q1]
  exact (h.wP1 hO _).w1 hO fun _ => _

theorem exh2 (level : ℕ) {d bg : ℕ} (ha : ka.Free d) (hb : ka.Free bg) :
    KRel ka out m0 ({ (ks.ExternalProductHoisted level (m.obj d) (m.obj bg) ks.pq2).1 with
      pq2 := (ks.ExternalProductHoisted level (m.obj d) (m.obj bg) ks.pq2).2 }, ct)
      (ka.ExternalProductHoistedM level d bg ka.pq2 m) := by
  rw [ka.ExternalProductHoistedM_eq level m ha hb (free_pq2 ka), h.ks, h.q2]
  exact (h.wP1 hO _).w2 hO fun _ => _

theorem exhO (level : ℕ) {d bg : ℕ} {id : String} {p : Ptr} (hp : out.get? id = some p)
    (ha : ka.Free d) (hb : ka.Free bg) :
    KRel ka out m0 ((ks.ExternalProductHoisted level (m.obj d) (m.obj bg) (m.q p)).1,
      ⟨ct.value.set id (ks.ExternalProductHoisted level (m.obj d) (m.obj bg) (m.q p)).2⟩)
      (ka.ExternalProductHoistedM level d bg p m) := by
  rw [ka.ExternalProductHoistedM_eq level m ha hb (.of_not (hO.disj hp)), h.ks]
  exact (h.wP1 hO _).store hO hp fun _ => _

/-- `mulAcc` into `swkPool1`. -/
theorem acc1 (level : ℕ) {d e : ℕ} (hd : d ≠ ka.base + 6) (he : e ≠ ka.base + 6) :
    KRel ka out m0 ({ ks with swk1 := mulAcc level (m.obj d) (m.obj e) ks.swk1 }, ct)
      (mulAccM level d e ka.swk1 m) := by
  rw [mulAccM_eq level m (show d ≠ ka.swk1 from hd) (show e ≠ ka.swk1 from he), h.s1]
  exact h.o1 hO _

/-- `mulAcc` into `swkPool2`. -/
theorem acc2 (level : ℕ) {d e : ℕ} (hd : d ≠ ka.base + 7) (he : e ≠ ka.base + 7) :
    KRel ka out m0 ({ ks with swk2 := mulAcc level (m.obj d) (m.obj e) ks.swk2 }, ct)
      (mulAccM level d e ka.swk2 m) := by
  rw [mulAccM_eq level m (show d ≠ ka.swk2 from hd) (show e ≠ ka.swk2 from he), h.s2]
  exact h.o2 hO _

end writes

/-- Reading a component of the output. -/
theorem derefOut {σ τ : Type _} {R : σ → τ → Prop} (h : KRel ka out m0 (ks, ct) m) {id : String}
    {f : RQ C → Go σ} {g : Ptr → Go τ}
    (k : ∀ p, out.get? id = some p → Runs R (f (m.q p)) (g p)) :
    Runs R (ct.value.deref id >>= f) (out.deref id >>= g) := by
  rw [show ct = out.read m from h.ct.symm]
  exact Runs.deref k

/-- Reading a component of an operand. -/
theorem derefIn {σ τ : Type _} {R : σ → τ → Prop} (h : KRel ka out m0 (ks, ct) m) {op : CtA}
    (hop : ∀ (i : String) (p : Ptr), op.get? i = some p → Safe ka out p.o) {id : String}
    {f : RQ C → Go σ} {g : Ptr → Go τ}
    (k : ∀ p, op.get? id = some p → Safe ka out p.o → Runs R (f (m.q p)) (g p)) :
    Runs R ((op.read m0).value.deref id >>= f) (op.deref id >>= g) :=
  Runs.deref fun p hp => by rw [← h.q (hop id p hp)]; exact k p hp (hop id p hp)

/-- Looking up a key or a hoisted component. -/
theorem derefObj {K σ τ : Type} [DecidableEq K] {R : σ → τ → Prop} (h : KRel ka out m0 (ks, ct) m)
    {H : GoMap K ℕ} (hH : ∀ (i : K) (o : ℕ), H.get? i = some o → Safe ka out o) {id : K}
    {f : SwKey C → Go σ} {g : ℕ → Go τ}
    (k : ∀ o, H.get? id = some o → Safe ka out o → Runs R (f (m.obj o)) (g o)) :
    Runs R ((H.mapVals fun _ o => m0.obj o).deref id >>= f) (H.deref id >>= g) :=
  Runs.deref fun o ho => by rw [← h.obj (hH id o ho)]; exact k o ho (hH id o ho)

end KRel

/-! ## New ciphertexts -/

/-- A ciphertext with given contents. -/
def ctFromV (v : String → RQ C) (o : List String) : Ct C :=
  ⟨("0" :: o).foldl (fun g id => g.set id (v id)) GoMap.empty⟩

/-- A ciphertext in new cells. -/
structure NewCtA (m : PMem C) (ct : CtA) (m' : PMem C) : Prop where
  wf : ct.WF
  next : m.next ≤ m'.next
  objs : ∀ (i : String) (p : Ptr), ct.get? i = some p → m.next ≤ p.o ∧ p.o < m'.next
  inj : ∀ {i j : String} {p : Ptr}, ct.get? i = some p → ct.get? j = some p → i = j
  old : ∀ p : Ptr, p.o < m.next → m'.val p = m.val p

/-- One more component in a new cell. -/
theorem NewCtA.addCell {m m1 : PMem C} {ct : CtA} (h : NewCtA m ct m1) (id : String) (x : RQ C) :
    NewCtA m (ct.set id ⟨m1.next, 0⟩) (m1.fresh.wrQ ⟨m1.next, 0⟩ fun _ => x) ∧
      CtA.read (ct.set id ⟨m1.next, 0⟩) (m1.fresh.wrQ ⟨m1.next, 0⟩ fun _ => x) =
        ⟨(ct.read m1).value.set id x⟩ := by
  constructor
  · have hold : ∀ p : Ptr, p.o < m1.next →
        (m1.fresh.wrQ ⟨m1.next, 0⟩ fun _ => x).val p = m1.val p := fun p hp => by
      rw [PMem.val_wrQ_of_ne _ _ (ptr_ne (by dsimp only; omega)), fresh_val_of_ne]
      omega
    refine ⟨h.wf.set _ _, h.next.trans (Nat.le_succ _), fun i p hp => ?_, ?_, fun p hp => ?_⟩
    · rw [GoMap.get?_set] at hp
      split at hp
      · cases hp; exact ⟨h.next, Nat.lt_succ_self _⟩
      · exact ⟨(h.objs i p hp).1, (h.objs i p hp).2.trans (Nat.lt_succ_self _)⟩
    · intro i j p hi hj
      rw [GoMap.get?_set] at hi hj
      split at hi
      · rename_i e1
        cases hi
        split at hj
        · rename_i e2; rw [e1, e2]
        · exact absurd (h.objs j _ hj).2 (lt_irrefl _)
      · split at hj
        · cases hj
          exact absurd (h.objs i _ hi).2 (lt_irrefl _)
        · exact h.inj hi hj
    · rw [hold p (hp.trans_le h.next), h.old p hp]
  · unfold CtA.read
    rw [GoMap.mapVals_set, PMem.q_wrQ_self]
    congr 2
    dsimp only
    refine GoMap.mapVals_congr h.wf fun i p hp => ?_
    have hp' : p.o < m1.next := (h.objs i p hp).2
    unfold PMem.q
    rw [PMem.val_wrQ_of_ne _ _ (ptr_ne (by dsimp only; omega)), fresh_val_of_ne]
    exact Nat.ne_of_lt hp'

theorem ctFrom_fold (v : String → RQ C) (o : List String) (m : PMem C) (s : CtA × PMem C)
    (cv : GoMap String (RQ C)) (h : NewCtA m s.1 s.2) (hr : s.1.read s.2 = ⟨cv⟩) :
    let s' := o.foldl (fun (s : CtA × PMem C) id =>
      (s.1.set id ⟨s.2.next, 0⟩, s.2.fresh.wrQ ⟨s.2.next, 0⟩ fun _ => v id)) s
    NewCtA m s'.1 s'.2 ∧ s'.1.read s'.2 = ⟨o.foldl (fun g id => g.set id (v id)) cv⟩ := by
  induction o generalizing s cv with
  | nil => exact ⟨h, hr⟩
  | cons id o ih =>
    obtain ⟨ct, m1⟩ := s
    dsimp only at h hr
    refine ih _ (cv.set id (v id)) (h.addCell id (v id)).1 ?_
    rw [(h.addCell id (v id)).2, hr]

/-- The ciphertext without components. -/
theorem NewCtA.empty (m : PMem C) : NewCtA m GoMap.empty m :=
  ⟨List.nodup_nil, le_rfl, fun i p h => absurd h (by simp), fun h => absurd h (by simp),
    fun _ _ => rfl⟩

theorem ctFromM_spec (v : String → RQ C) (o : List String) (m : PMem C) :
    NewCtA m (ctFromM v o m).1 (ctFromM v o m).2 ∧
      (ctFromM v o m).1.read (ctFromM v o m).2 = ctFromV v o :=
  ctFrom_fold v ("0" :: o) m (GoMap.empty, m) GoMap.empty (.empty m) rfl

theorem ctFromV_new (level : ℕ) (o : List String) :
    ctFromV (fun _ => RPoly.new (level + 1)) o = (Ct.new level o : Ct C) := by
  unfold ctFromV Ct.new
  rw [List.foldl_cons]
  generalize GoMap.empty.set "0" (RPoly.new (level + 1) : RQ C) = g
  congr 1
  induction o generalizing g with
  | nil => rfl
  | cons id o ih => exact ih _

end MK
