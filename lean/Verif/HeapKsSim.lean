import Verif.HeapKs

/-!
# Key switching and decryption on pointers do what they do on values
-/

noncomputable section

namespace MK

open Mem

variable {C : Ctx} {α β γ σ τ η : Type} {h h0 : Heap C} {P : Pools}

/-! ## The key switcher -/

theorem getDigits_sim {a : ℕ} {c : Ct C} (hc : h.viewCt a = c) (ks : KS C) (l : ℕ)
    (H : Option (HoistedCt C)) (id : String) :
    Sim h (Mem.getDigits ks l a H id) (ks.getDigits l c H id) fun h' t r => h' = h ∧ t = r := by
  unfold Mem.getDigits KS.getDigits
  cases H with
  | none => exact Sim.load_bind hc fun v _ => Sim.pure ⟨rfl, rfl⟩
  | some H => exact Sim.lift_bind fun v _ => Sim.pure ⟨rfl, rfl⟩

theorem extComp_sim {a : ℕ} {c : Ct C} (hc : h.viewCt a = c) (ks : KS C) (l : ℕ)
    (H : Option (HoistedCt C)) (id : String) (key : SwKey C) :
    Sim h (Mem.extComp ks l a H id key) (ks.extComp l c H id key) fun h' t r => h' = h ∧ t = r := by
  unfold Mem.extComp KS.extComp
  cases H with
  | none => exact Sim.load_bind hc fun v _ => Sim.pure ⟨rfl, rfl⟩
  | some H => exact Sim.lift_bind fun v _ => Sim.pure ⟨rfl, rfl⟩

/-- The relation of loops whose state is scratch only. -/
abbrev RelK (h0 : Heap C) : Heap C → σ → σ → Prop := fun h s t => h = h0 ∧ s = t

theorem xStep_sim {a : ℕ} {c : Ct C} (hc : h.viewCt a = c) (l : ℕ) (H : Option (HoistedCt C))
    (rlk : RelinKeySet (RelinKey C) η) (id : String) (ks : KS C) :
    Sim h (Mem.xStep l a H rlk id ks) (KS.xStep l c H rlk id ks) (RelK h) := by
  unfold Mem.xStep KS.xStep
  refine Sim.bind (getDigits_sim hc ks l H id) ?_
  rintro h' ⟨ks', d⟩ _ ⟨rfl, rfl⟩
  exact Sim.lift_bind fun k _ => Sim.pure ⟨rfl, rfl⟩

theorem yStep_sim {a : ℕ} {c : Ct C} (hc : h.viewCt a = c) (l : ℕ) (H : Option (HoistedCt C))
    (rlk : RelinKeySet (RelinKey C) η) (id : String) (ks : KS C) :
    Sim h (Mem.yStep l a H rlk id ks) (KS.yStep l c H rlk id ks) (RelK h) := by
  unfold Mem.yStep KS.yStep
  refine Sim.bind (getDigits_sim hc ks l H id) ?_
  rintro h' ⟨ks', d⟩ _ ⟨rfl, rfl⟩
  exact Sim.lift_bind fun k _ => Sim.pure ⟨rfl, rfl⟩

section

variable {a a0 a1 b : ℕ}

theorem t0Step_sim (ho : h0.Own b) (ra : Rd b h0 a) (l : ℕ) (id : String) {ks : KS C}
    {s : KS C × Ct C} (hr : RelS b h0 h ks s) :
    Sim h (Mem.t0Step l a b id ks) (KS.t0Step l (h0.viewCt a) id s) (RelS b h0) := by
  obtain ⟨ks', out⟩ := s
  obtain ⟨rfl, hu⟩ := hr
  unfold Mem.t0Step KS.t0Step
  dsimp only at hu ⊢
  refine Sim.load_bind (hu.read ra) fun v _ => Sim.load_bind hu.1 fun o ho' => ?_
  exact Sim.store_upd hu ho ho' fun h' hu' => Sim.pure ⟨rfl, hu'⟩

theorem t1Step_sim (ho : h0.Own b) (ra : Rd b h0 a) (l : ℕ) (i0 : IDSet) (id : String) {ks : KS C}
    {s : KS C × Ct C} (hr : RelS b h0 h ks s) :
    Sim h (Mem.t1Step l a b i0 id ks) (KS.t1Step l (h0.viewCt a) i0 id s) (RelS b h0) := by
  obtain ⟨ks', out⟩ := s
  obtain ⟨rfl, hu⟩ := hr
  unfold Mem.t1Step KS.t1Step
  dsimp only at hu ⊢
  refine Sim.load_bind (hu.read ra) fun v _ => Sim.load_bind hu.1 fun o ho' => ?_
  exact Sim.store_upd hu ho ho' fun h' hu' => Sim.pure ⟨rfl, hu'⟩

theorem invStep_sim (ho : h0.Own b) (l : ℕ) (id : String) {c : Ct C} (hu : Upd b h0 h c) (u : Unit) :
    Sim h (Mem.invStep l b id u) (MK.invStep l id c) (RelU b h0) := by
  unfold Mem.invStep MK.invStep
  exact Sim.load_bind hu.1 fun o ho' => Sim.store_upd_end hu ho ho' fun h' hu' => hu'

theorem e1Step_sim (ho : h0.Own b) (ra : Rd b h0 a) (l : ℕ) (H : Option (HoistedCt C)) (id : String)
    {ks : KS C} {s : KS C × Ct C} (hr : RelS b h0 h ks s) :
    Sim h (Mem.e1Step l a b H id ks) (KS.e1Step l (h0.viewCt a) H id s) (RelS b h0) := by
  obtain ⟨ks', out⟩ := s
  obtain ⟨rfl, hu⟩ := hr
  unfold Mem.e1Step KS.e1Step
  dsimp only at hu ⊢
  refine Sim.bind (extComp_sim (hu.read ra) ks l H id _) ?_
  rintro h' k _ ⟨rfl, rfl⟩
  refine Sim.load_bind hu.1 fun o ho' => ?_
  exact Sim.store_upd hu ho ho' fun h' hu' => Sim.pure ⟨rfl, hu'⟩

theorem lastPlain_sim (ho : h0.Own b) (crs : CRS C) (l : ℕ) (v : SwKey C) (id : String) {ks : KS C}
    {s : KS C × Ct C} (hr : RelS b h0 h ks s) :
    Sim h (Mem.lastPlain crs b l v id ks) (KS.lastPlain crs l v id s) (RelS b h0) := by
  obtain ⟨ks', out⟩ := s
  obtain ⟨rfl, hu⟩ := hr
  unfold Mem.lastPlain KS.lastPlain
  dsimp only at hu ⊢
  refine Sim.load_bind hu.1 fun o0 ho0 => Sim.store_upd hu ho ho0 fun h1 hu1 => ?_
  refine Sim.lift_bind fun u _ => Sim.load_bind hu1.1 fun o ho' => ?_
  exact Sim.store_upd hu1 ho ho' fun h' hu' => Sim.pure ⟨rfl, hu'⟩

theorem lastHoisted_sim (ho : h0.Own b) (crs : CRS C) (l : ℕ) (v : SwKey C) (id : String) {ks : KS C}
    {s : KS C × Ct C} (hr : RelS b h0 h ks s) :
    Sim h (Mem.lastHoisted crs b l v id ks) (KS.lastHoisted crs l v id s) (RelS b h0) := by
  obtain ⟨ks', out⟩ := s
  obtain ⟨rfl, hu⟩ := hr
  unfold Mem.lastHoisted KS.lastHoisted
  dsimp only at hu ⊢
  refine Sim.load_bind hu.1 fun o0 ho0 => Sim.store_upd hu ho ho0 fun h1 hu1 => ?_
  refine Sim.lift_bind fun u _ => Sim.load_bind hu1.1 fun o ho' => ?_
  exact Sim.store_upd hu1 ho ho' fun h' hu' => Sim.pure ⟨rfl, hu'⟩

theorem e0Step_sim (ra : Rd b h0 a) (l : ℕ) (H : Option (HoistedCt C))
    (rlk : RelinKeySet (RelinKey C) η) {last : SwKey C → String → KS C → HM C (KS C)}
    {last' : SwKey C → String → KS C × Ct C → Go (KS C × Ct C)}
    (hl : ∀ v id (h : Heap C) ks s, RelS b h0 h ks s → Sim h (last v id ks) (last' v id s) (RelS b h0))
    (id : String) {ks : KS C} {s : KS C × Ct C} (hr : RelS b h0 h ks s) :
    Sim h (Mem.e0Step last l a H rlk id ks) (KS.e0Step last' l (h0.viewCt a) H rlk id s)
      (RelS b h0) := by
  obtain ⟨ks', out⟩ := s
  obtain ⟨rfl, hu⟩ := hr
  unfold Mem.e0Step KS.e0Step
  dsimp only at hu ⊢
  refine Sim.lift_bind fun k _ => Sim.bind (extComp_sim (hu.read ra) ks l H id _) ?_
  rintro h' ks' _ ⟨rfl, rfl⟩
  exact hl _ _ _ _ _ ⟨rfl, hu⟩

/-- `MulAndRelin(Hoisted)` on pointers: the operands may share with each other, not with the
output. -/
theorem mulCore_sim (ho : h.Own b) (r0 : Rd b h a0) (r1 : Rd b h a1)
    {last : ℕ → SwKey C → String → KS C → HM C (KS C)}
    {last' : ℕ → SwKey C → String → KS C × Ct C → Go (KS C × Ct C)}
    (hl : ∀ l v id (h' : Heap C) ks s, RelS b h h' ks s →
      Sim h' (last l v id ks) (last' l v id s) (RelS b h))
    (ks : KS C) (H0 H1 : Option (HoistedCt C)) (rlk : RelinKeySet (RelinKey C) η) (o : MulOrd) :
    Sim h (Mem.mulCore last ks a0 a1 H0 H1 rlk b o)
      (ks.mulCore last' (h.viewCt a0) (h.viewCt a1) H0 H1 rlk (h.viewCt b) o) (RelS b h) := by
  unfold Mem.mulCore KS.mulCore
  refine Sim.level_bind rfl fun l _ => Sim.level_bind rfl fun l0 _ => ?_
  split
  · exact Sim.error
  refine Sim.lift_bind fun i0 _ => Sim.lift_bind fun _ _ => ?_
  dsimp only
  refine Sim.bind (Sim.forEach (R := RelK h) o.x ?_ ⟨rfl, rfl⟩) ?_
  · rintro id _ h' ks _ ⟨rfl, rfl⟩
    exact xStep_sim rfl l H0 rlk id ks
  rintro h' ks _ ⟨rfl, rfl⟩
  refine Sim.bind (Sim.forEach (R := RelK h') o.y ?_ ⟨rfl, rfl⟩) ?_
  · rintro id _ h' ks _ ⟨rfl, rfl⟩
    exact yStep_sim rfl l H1 rlk id ks
  rintro h' ks _ ⟨rfl, rfl⟩
  refine Sim.load_bind rfl fun v0 _ => Sim.load_bind rfl fun v1 _ => ?_
  refine Sim.load_bind rfl fun o0 ho0 => ?_
  refine Sim.store_upd (Upd.refl b h') ho ho0 fun h1 hu1 => ?_
  refine Sim.bind (Sim.forEach (R := RelS b h') o.t0 ?_ ⟨rfl, hu1⟩) ?_
  · intro id _ h2 ks s hr; exact t0Step_sim ho r0 l id hr
  rintro h2 ks ⟨_, out⟩ ⟨rfl, hu2⟩
  dsimp only at hu2 ⊢
  refine Sim.bind (Sim.forEach (R := RelS b h') o.t1 ?_ ⟨rfl, hu2⟩) ?_
  · intro id _ h2 ks s hr; exact t1Step_sim ho r1 l i0 id hr
  rintro h3 ks ⟨_, out⟩ ⟨rfl, hu3⟩
  dsimp only at hu3 ⊢
  refine Sim.bind (Sim.forEach (R := RelU b h') o.inv ?_ hu3) ?_
  · intro id _ h2 u s hr; exact invStep_sim ho l id hr u
  rintro h4 _ out hu4
  refine Sim.bind (Sim.forEach (R := RelS b h') o.e1 ?_ ⟨rfl, hu4⟩) ?_
  · intro id _ h2 ks s hr; exact e1Step_sim ho r1 l H1 id hr
  rintro h5 ks ⟨_, out⟩ ⟨rfl, hu5⟩
  dsimp only at hu5 ⊢
  refine Sim.forEach (R := RelS b h') o.e0 ?_ ⟨rfl, hu5⟩
  intro id _ h2 ks s hr; exact e0Step_sim r0 l H0 rlk (hl l) id hr

theorem permStep_sim (ho : h0.Own b) (l g : ℕ) (id : String) {ks : KS C} {s : KS C × Ct C}
    (hr : RelS b h0 h ks s) :
    Sim h (Mem.permStep l g b id ks) (KS.permStep l g id s) (RelS b h0) := by
  obtain ⟨ks', out⟩ := s
  obtain ⟨rfl, hu⟩ := hr
  unfold Mem.permStep KS.permStep
  dsimp only at hu ⊢
  refine Sim.load_bind hu.1 fun c hc => Sim.load_val hu.1 hc ?_
  exact Sim.store_upd hu ho hc fun h' hu' => Sim.pure ⟨rfl, hu'⟩

/-- An external product with a component of the input, on pointers and on values. -/
def ExtSim (b : ℕ) (h0 : Heap C) (extp : KS C → String → SwKey C → RQ C → HM C (KS C × RQ C))
    (extp' : KS C → String → SwKey C → RQ C → Go (KS C × RQ C)) : Prop :=
  ∀ (h : Heap C) (c : Ct C), Upd b h0 h c → ∀ ks id key o,
    Sim h (extp ks id key o) (extp' ks id key o) fun h' t r => h' = h ∧ t = r

theorem rotStep_sim (ho : h0.Own b) {extp : KS C → String → SwKey C → RQ C → HM C (KS C × RQ C)}
    {extp' : KS C → String → SwKey C → RQ C → Go (KS C × RQ C)} (he : ExtSim b h0 extp extp')
    (crs : CRS C) (l : ℕ) (i : ℤ) (rkSet : RotationKeySet (RotKey C)) (id : String) {ks : KS C}
    {s : KS C × Ct C} (hr : RelS b h0 h ks s) :
    Sim h (Mem.rotStep extp crs l i rkSet b id ks) (KS.rotStep extp' crs l i rkSet id s)
      (RelS b h0) := by
  obtain ⟨ks', out⟩ := s
  obtain ⟨rfl, hu⟩ := hr
  unfold Mem.rotStep KS.rotStep
  dsimp only at hu ⊢
  refine Sim.lift_bind fun rk _ => Sim.bind (he h _ hu ks id _ _) ?_
  rintro h1 ⟨ks1, c⟩ _ ⟨rfl, rfl⟩
  dsimp only
  refine Sim.load_bind hu.1 fun o0 ho0 => Sim.store_upd hu ho ho0 fun h2 hu2 => ?_
  refine Sim.lift_bind fun u _ => Sim.load_bind hu2.1 fun o ho' => ?_
  refine Sim.bind (he h2 _ hu2 _ id _ _) ?_
  rintro h3 ⟨ks3, c⟩ _ ⟨rfl, rfl⟩
  exact Sim.store_upd hu2 ho ho' fun h' hu' => Sim.pure ⟨rfl, hu'⟩

/-- `Rotate(Hoisted)` on pointers, into a ciphertext that shares nothing with the input.  `h` may be a
later state than `h0`. -/
theorem rotCore_sim (ho : h0.Own b) (ra : Rd b h0 a) {c : Ct C} (hu : Upd b h0 h c)
    {extp : ℕ → KS C → String → SwKey C → RQ C → HM C (KS C × RQ C)}
    {extp' : ℕ → KS C → String → SwKey C → RQ C → Go (KS C × RQ C)}
    (he : ∀ l, ExtSim b h0 (extp l) (extp' l))
    (crs : CRS C) (ks : KS C) (i : ℤ) (rkSet : RotationKeySet (RotKey C)) (o : RotOrd) :
    Sim h (Mem.rotCore extp crs ks a i rkSet b o)
      (KS.rotCore extp' crs ks (h0.viewCt a) i rkSet c o) (RelS b h0) := by
  unfold Mem.rotCore KS.rotCore
  refine Sim.level_bind hu.1 fun l _ => Sim.lift_bind fun _ _ =>
    Sim.level_bind (hu.read ra) fun l0 _ => ?_
  split
  · exact Sim.error
  dsimp only
  refine Sim.load_bind (hu.read ra) fun i0 _ => Sim.load_bind hu.1 fun o0 ho0 => ?_
  refine Sim.store_upd hu ho ho0 fun h1 hu1 => ?_
  refine Sim.bind (Sim.forEach (R := RelS b h0) o.k ?_ ⟨rfl, hu1⟩) ?_
  · intro id _ h2 ks s hr; exact rotStep_sim ho (he l) crs l _ rkSet id hr
  rintro h2 ks ⟨_, out⟩ ⟨rfl, hu2⟩
  dsimp only at hu2 ⊢
  refine Sim.forEach (R := RelS b h0) o.p ?_ ⟨rfl, hu2⟩
  intro id _ h2 ks s hr; exact permStep_sim ho l _ id hr

theorem ksRotate_sim (ho : h0.Own b) (ra : Rd b h0 a) {c : Ct C} (hu : Upd b h0 h c) (crs : CRS C)
    (ks : KS C) (i : ℤ) (rkSet : RotationKeySet (RotKey C)) (o : RotOrd) :
    Sim h (Mem.ksRotate crs ks a i rkSet b o) (KS.Rotate crs ks (h0.viewCt a) i rkSet c o)
      (RelS b h0) := by
  unfold Mem.ksRotate KS.Rotate
  refine rotCore_sim ho ra hu (fun l h c hu ks id key o => ?_) crs ks i rkSet o
  exact Sim.load_bind (hu.read ra) fun v _ => Sim.pure ⟨rfl, rfl⟩

theorem ksRotateHoisted_sim (ho : h0.Own b) (ra : Rd b h0 a) {c : Ct C} (hu : Upd b h0 h c)
    (crs : CRS C) (ks : KS C) (i : ℤ) (H : HoistedCt C) (rkSet : RotationKeySet (RotKey C))
    (o : RotOrd) :
    Sim h (Mem.ksRotateHoisted crs ks a i H rkSet b o)
      (KS.RotateHoisted crs ks (h0.viewCt a) i H rkSet c o) (RelS b h0) := by
  unfold Mem.ksRotateHoisted KS.RotateHoisted
  refine rotCore_sim ho ra hu (fun l h c hu ks id key o => ?_) crs ks i rkSet o
  exact Sim.lift_bind fun v _ => Sim.pure ⟨rfl, rfl⟩

theorem ksConjugate_sim (ho : h.Own b) (ra : Rd b h a) (crs : CRS C) (ks : KS C)
    (ckSet : KeySet (ConjKey C)) (o : RotOrd) :
    Sim h (Mem.ksConjugate crs ks a ckSet b o)
      (KS.Conjugate crs ks (h.viewCt a) ckSet (h.viewCt b) o) (RelS b h) := by
  unfold Mem.ksConjugate KS.Conjugate
  refine Sim.level_bind rfl fun l _ => Sim.lift_bind fun _ _ => Sim.level_bind rfl fun l0 _ => ?_
  split
  · exact Sim.error
  refine Sim.bind (Sim.forEach (R := RelU b h) o.p ?_ (Upd.refl b h)) ?_
  · intro id _ h1 _ c hu
    unfold Mem.conjPermStep MK.conjPermStep
    refine Sim.load_bind (hu.read ra) fun v _ => Sim.load_bind hu.1 fun o ho' => ?_
    exact Sim.lift_bind fun p _ => Sim.store_upd_end hu ho ho' fun h' hu' => hu'
  rintro h1 _ out hu1
  refine Sim.bind (Sim.forEach (R := RelS b h) o.k ?_ ⟨rfl, hu1⟩) ?_
  · rintro id _ h2 ks ⟨_, out⟩ ⟨rfl, hu⟩
    unfold Mem.conjKeyStep KS.conjKeyStep
    dsimp only at hu ⊢
    refine Sim.lift_bind fun ck _ => Sim.load_bind hu.1 fun v _ => ?_
    refine Sim.load_bind hu.1 fun o0 ho0 => ?_
    exact Sim.store_upd hu ho ho0 fun h' hu' => Sim.pure ⟨rfl, hu'⟩
  rintro h2 ks ⟨_, out⟩ ⟨rfl, hu2⟩
  dsimp only at hu2 ⊢
  refine Sim.forEach (R := RelS b h) o.k2 ?_ ⟨rfl, hu2⟩
  rintro id _ h2 ks ⟨_, out⟩ ⟨rfl, hu⟩
  unfold Mem.conjCrsStep KS.conjCrsStep
  dsimp only at hu ⊢
  refine Sim.load_bind hu.1 fun v hv => Sim.lift_bind fun u _ => Sim.load_val hu.1 hv ?_
  exact Sim.store_upd hu ho hv fun h' hu' => Sim.pure ⟨rfl, hu'⟩

end

/-! ## Multiplication -/

theorem Heap.viewEv_ksw (h : Heap C) (ev : HEv C) (ks : KS C) :
    h.viewEv { ev with ksw := ks } = { h.viewEv ev with ksw := ks } := rfl

/-- Writing components of a ciphertext apart from the pools leaves the evaluator alone. -/
theorem Wr.viewEv {B : Set ℕ} {h h' : Heap C} {ev : HEv C} {y : ℕ} (ok : PoolOk h ev.toPools)
    (sy : Sep h ev.toPools y) (w : Wr B (h.polys (h.cct y).1) h h') : h'.viewEv ev = h.viewEv ev := by
  unfold Heap.viewEv
  rw [w.viewCt ok.valid.wf sy.disj.symm, w.poly _ sy.polyQ]

/-- Setting a scale. -/
theorem Wr.ofScale (h : Heap C) (y : ℕ) (s : ℚ) :
    Wr {y} ∅ h { h with cct := Function.update h.cct y ((h.cct y).1, s) } := by
  refine ⟨rfl, rfl, fun a ha => Function.update_of_ne (by simpa using ha) _ _, fun a => ?_,
    fun _ _ => rfl⟩
  by_cases ha : a = y
  · subst ha; simp
  · simp [Function.update_of_ne ha]

/-- `mulRelinHoisted` on pointers, into a ciphertext that shares nothing with the operands. -/
theorem mulRelinHoisted_sim {ev : HEv C} (ok : PoolOk h ev.toPools) {x0 x1 y : ℕ}
    (s0 : Sep h ev.toPools x0) (s1 : Sep h ev.toPools x1) (sy : Sep h ev.toPools y)
    (ho : h.Own (h.cct y).1) (d0 : Disjoint (h.polys (h.cct x0).1) (h.polys (h.cct y).1))
    (d1 : Disjoint (h.polys (h.cct x1).1) (h.polys (h.cct y).1))
    (prm : CPar C) (H0 H1 : Option (HoistedCt C)) (rlk : RlkSet C) (π : Sched) :
    Sim h (Mem.mulRelinHoisted prm ev x0 x1 H0 H1 rlk y π)
      ((h.viewEv ev).mulRelinHoisted prm (h.view x0) (h.view x1) H0 H1 rlk (h.view y) π)
      fun h' t r => t.toPools = ev.toPools ∧ h'.viewEv t = r.1 ∧ h'.view y = r.2 ∧
        EvFr ev.toPools {y} (h.polys (h.cct y).1) h h' := by
  unfold Mem.mulRelinHoisted Ev.mulRelinHoisted
  refine Sim.ctOf_bind (Sim.ctOf_bind (Sim.ctOf_bind ?_))
  refine Sim.level_bind (a := (h.cct x0).1) rfl fun l0 _ => ?_
  refine Sim.level_bind (a := (h.cct x1).1) rfl fun l1 _ => ?_
  refine Sim.level_bind (a := (h.cct y).1) rfl fun lo _ => ?_
  have rest : ∀ (h2 : Heap C) (out : Ct C), Upd (h.cct y).1 h h2 out →
      Sim h2 (do
        let s0 ← scaleOf x0
        let s1 ← scaleOf x1
        setScale y (prm.fl.rnd (s0 * s1))
        let k0 ← keysOf (h.cct x0).1
        let k1 ← keysOf (h.cct x1).1
        let k ← keysOf (h.cct y).1
        let ks ← Mem.mulCore (Mem.lastHoisted prm.crs (h.cct y).1) ev.ksw (h.cct x0).1 (h.cct x1).1 H0
          H1 rlk (h.cct y).1 ((π.sub 1).mulOrdK k0 k1 k)
        let _ ← Mem.Rescale prm { ev with ksw := ks } y prm.scale y (π.sub 2)
        return ({ ev with ksw := ks } : HEv C))
      (do
        let (ksw, out) ← (h.viewEv ev).ksw.MulAndRelinHoisted prm.crs (h.view x0).ct (h.view x1).ct H0
          H1 rlk out ((π.sub 1).mulOrd (h.view x0).ct (h.view x1).ct out)
        let (_, e, r) ← ({ h.viewEv ev with ksw := ksw } : Ev C).rescaleSelf prm
          ⟨out, prm.fl.rnd ((h.view x0).scale * (h.view x1).scale)⟩ prm.scale (π.sub 2)
        return (e, r))
      fun h' t r => t.toPools = ev.toPools ∧ h'.viewEv t = r.1 ∧ h'.view y = r.2 ∧
        EvFr ev.toPools {y} (h.polys (h.cct y).1) h h' := by
    intro h2 out hu2
    have w2 : EvFr ev.toPools ∅ (h.polys (h.cct y).1) h h2 := EvFr.ofWr ok hu2.2
    refine Sim.scaleOf_bind (Sim.scaleOf_bind (Sim.setScale_bind ?_))
    rw [hu2.2.cct x0 (by simp), hu2.2.cct x1 (by simp)]
    obtain ⟨sc, hsc⟩ : ∃ sc : ℚ, sc = prm.fl.rnd ((h.cct x0).2 * (h.cct x1).2) := ⟨_, rfl⟩
    rw [← hsc, show (h.view x0).scale * (h.view x1).scale = (h.cct x0).2 * (h.cct x1).2 from rfl, ← hsc]
    obtain ⟨h3, hh3⟩ : ∃ h3 : Heap C,
        h3 = { h2 with cct := Function.update h2.cct y ((h2.cct y).1, sc) } := ⟨_, rfl⟩
    rw [← hh3]
    have wr3 : Wr {y} ∅ h2 h3 := hh3 ▸ Wr.ofScale h2 y _
    have wr3' : Wr {y} (h.polys (h.cct y).1) h h3 :=
      (hu2.2.mono (by simp) subset_rfl).trans (wr3.mono subset_rfl (by simp))
    have w3 : EvFr ev.toPools {y} (h.polys (h.cct y).1) h h3 := EvFr.ofWr ok wr3'
    have c3 : h3.cct y = ((h.cct y).1, sc) := by
      have : h3.cct y = ((h2.cct y).1, sc) := by
        rw [hh3]; exact Function.update_self _ _ _
      rw [this, hu2.2.cct1]
    have v0 : h3.viewCt (h.cct x0).1 = (h.view x0).ct := s0.viewCt w3 d0
    have v1 : h3.viewCt (h.cct x1).1 = (h.view x1).ct := s1.viewCt w3 d1
    have vb : h3.viewCt (h.cct y).1 = out := by rw [hh3]; exact hu2.1
    have own3 : h3.Own (h.cct y).1 := wr3'.own ho
    have r0 : Rd (h.cct y).1 h3 (h.cct x0).1 :=
      ⟨by rw [wr3'.ct]; exact s0.valid.wf, by rw [wr3'.polys, wr3'.polys]; exact d0⟩
    have r1 : Rd (h.cct y).1 h3 (h.cct x1).1 :=
      ⟨by rw [wr3'.ct]; exact s1.valid.wf, by rw [wr3'.polys, wr3'.polys]; exact d1⟩
    refine Sim.keysOf_bind (Sim.keysOf_bind (Sim.keysOf_bind ?_))
    rw [← Heap.viewCt_keys, ← Heap.viewCt_keys, ← Heap.viewCt_keys, v0, v1, vb]
    have mc := mulCore_sim own3 r0 r1 (last := Mem.lastHoisted prm.crs (h.cct y).1)
      (last' := KS.lastHoisted prm.crs)
      (fun l v id h' ks s hr => lastHoisted_sim own3 prm.crs l v id hr) ev.ksw H0 H1 rlk
      ((π.sub 1).mulOrd (h.view x0).ct (h.view x1).ct out)
    rw [v0, v1, vb] at mc
    refine Sim.bind mc ?_
    rintro h4 ks ⟨_, out'⟩ ⟨rfl, hu4⟩
    dsimp only at hu4 ⊢
    have wr4 : Wr {y} (h.polys (h.cct y).1) h h4 := by
      refine wr3'.trans ?_
      have := hu4.2
      rw [wr3'.polys] at this
      exact this.mono (by simp) subset_rfl
    have w4 : EvFr ev.toPools {y} (h.polys (h.cct y).1) h h4 := EvFr.ofWr ok wr4
    have sy4 := sy.step w4
    have c4 : h4.cct y = ((h.cct y).1, sc) := by
      rw [hu4.2.cct y (by simp), c3]
    have ev4 : h4.viewEv ({ ev with ksw := ks } : HEv C) = { h.viewEv ev with ksw := ks } := by
      rw [Heap.viewEv_ksw, wr4.viewEv ok sy]
    have vy4 : h4.view y = ⟨out', sc⟩ := by
      unfold Heap.view; rw [c4, hu4.1]
    have rs := Rescale_sim (ev := { ev with ksw := ks }) w4.ok sy4 sy4
      (by rw [c4]; exact wr4.own ho) (fun h => absurd rfl h) prm prm.scale (π.sub 2)
    rw [ev4, vy4, show decide (y = y) = true by simp] at rs
    refine Sim.bind rs ?_
    rintro h5 t ⟨e, ev', r⟩ ⟨_, ea, eb, w⟩
    refine Sim.pure ⟨rfl, ea, eb, w4.trans w (fun _ _ h => h) ?_⟩
    intro p _ hp
    rw [c4, wr4.polys] at hp
    exact hp
  refine Sim.keysOf_bind ?_
  dsimp only
  by_cases hl : min (min l0 l1) lo < lo
  · rw [if_pos hl, if_pos hl,
      show (h.ct (h.cct y).1).keys = (h.view y).ct.value.keys from (h.viewCt_keys _).symm]
    exact Sim.bind (dropLevel_sim ho (Upd.refl _ h) _ _) fun h2 _ out hu2 => rest h2 out hu2
  · rw [if_neg hl, if_neg hl]
    exact rest h _ (Upd.refl _ h)

theorem MulRelinHoistedNew_sim {ev : HEv C} (ok : PoolOk h ev.toPools) {x0 x1 : ℕ}
    (s0 : Sep h ev.toPools x0) (s1 : Sep h ev.toPools x1) (prm : CPar C)
    (H0 H1 : Option (HoistedCt C)) (rlk : RlkSet C) (π : Sched) :
    Sim h (Mem.MulRelinHoistedNew prm ev x0 x1 H0 H1 rlk π)
      ((h.viewEv ev).MulRelinHoistedNew prm (h.view x0) (h.view x1) H0 H1 rlk π) (ResEv ev h) := by
  unfold Mem.MulRelinHoistedNew Ev.MulRelinHoistedNew
  refine Sim.bind (newCiphertextBinary_sim (x0 := x0) (x1 := x1) (π.sub 0)) ?_
  intro h1 y out n
  have w1 := EvFr.ofFr ok n.fr
  refine Sim.setScale_bind ?_
  set h2 : Heap C := { h1 with cct := Function.update h1.cct y ((h1.cct y).1, 0) } with hh2
  have wr2 : Wr {y} ∅ h1 h2 := Wr.ofScale h1 y 0
  have w12 : EvFr ev.toPools {y} ∅ h1 h2 := EvFr.ofWr w1.ok wr2
  have w2 : EvFr ev.toPools ∅ ∅ h h2 := w1.trans w12
    (fun a ha hm => by rw [Set.mem_singleton_iff] at hm; exact absurd n.fresh (by omega)) (by simp)
  have cy : h2.cct y = ((h1.cct y).1, 0) := Function.update_self _ _ _
  have e0 : h2.view x0 = h.view x0 := s0.view w2 (by simp) (by simp)
  have e1 : h2.view x1 = h.view x1 := s1.view w2 (by simp) (by simp)
  have ee : h2.viewEv ev = h.viewEv ev := n.viewEv ok
  have ey : h2.view y = ⟨out.ct, 0⟩ := by
    unfold Heap.view; rw [cy, ← n.view]; rfl
  have := mulRelinHoisted_sim w2.ok (s0.step w2) (s1.step w2) ((n.sep ok).step w12)
    (by rw [cy]; exact n.own)
    (by rw [s0.cct_eq w2, cy]; exact n.disj s0.valid) (by rw [s1.cct_eq w2, cy]; exact n.disj s1.valid)
    prm H0 H1 rlk (π.sub 1)
  rw [e0, e1, ee, ey, cy] at this
  have fin := Sim.bind this (k := fun ev => (pure (ev, y) : HM C (HEv C × ℕ))) (k' := fun r => .ok r)
    (R := ResEv ev h) fun h3 t r ⟨a, b, d, w⟩ => Sim.pure ⟨a, b, n.res ok (B := {y})
      (by simpa using n.fresh) ((w12.mono subset_rfl (Set.empty_subset _)).trans w (fun _ _ h => h)
        (fun _ _ h => h)) d⟩
  rwa [show (fun r => (.ok r : Go (Ev C × CCt C))) = pure from rfl, bind_pure] at fin

theorem hoistInto_sim {a : ℕ} {c : Ct C} (hc : h.viewCt a = c) (l : ℕ) (o : List String)
    (s : KS C × HoistedCt C) :
    Sim h (Mem.hoistInto l a o s) (MK.hoistInto l c o s) (RelK h) := by
  unfold Mem.hoistInto MK.hoistInto
  refine Sim.forEach (R := RelK h) o ?_ ⟨rfl, rfl⟩
  rintro id _ h' s _ ⟨rfl, rfl⟩
  exact Sim.load_bind hc fun v _ => Sim.lift_bind fun ad _ => Sim.pure ⟨rfl, rfl⟩

theorem MulRelinNew_sim {ev : HEv C} (ok : PoolOk h ev.toPools) {x0 x1 : ℕ}
    (s0 : Sep h ev.toPools x0) (s1 : Sep h ev.toPools x1) (prm : CPar C) (rlk : RlkSet C) (π : Sched) :
    Sim h (Mem.MulRelinNew prm ev x0 x1 rlk π)
      ((h.viewEv ev).MulRelinNew prm (h.view x0) (h.view x1) (decide (x0 = x1)) rlk π)
      fun h' t r => t.2.1 = r.2.1 ∧ ResEv ev h h' (t.1, t.2.2) (r.1, r.2.2) := by
  have key : ∀ (ks : KS C) (rlk : RlkSet C) (H0 H1 : Option (HoistedCt C)),
      Sim h (do
        let (ev, y) ← Mem.MulRelinHoistedNew prm { ev with ksw := ks } x0 x1 H0 H1 rlk (π.sub 2)
        return (ev, rlk, y))
      (do
        let (e, r) ← ({ h.viewEv ev with ksw := ks } : Ev C).MulRelinHoistedNew prm (h.view x0)
          (h.view x1) H0 H1 rlk (π.sub 2)
        return (e, rlk, r))
      fun h' t r => t.2.1 = r.2.1 ∧ ResEv ev h h' (t.1, t.2.2) (r.1, r.2.2) := by
    intro ks rlk H0 H1
    refine Sim.bind (MulRelinHoistedNew_sim (ev := { ev with ksw := ks }) ok s0 s1 prm H0 H1 rlk
      (π.sub 2)) ?_
    rintro h' ⟨ev', y⟩ ⟨e, r⟩ hr
    exact Sim.pure ⟨rfl, hr⟩
  unfold Mem.MulRelinNew Ev.MulRelinNew
  refine Sim.ctOf_bind (Sim.ctOf_bind ?_)
  by_cases hx : x0 = x1
  · rw [if_pos hx, if_pos (by simpa using hx)]
    refine Sim.keysOf_bind ?_
    rw [show (h.ct (h.cct x0).1).keys = (h.view x0).ct.value.keys from (h.viewCt_keys _).symm]
    refine Sim.lift_bind fun ids _ => Sim.level_bind (a := (h.cct x0).1) rfl fun l0 _ => ?_
    refine Sim.bind (hoistInto_sim (a := (h.cct x0).1) rfl l0 _ _) ?_
    rintro h' ⟨ks, p0⟩ _ ⟨rfl, rfl⟩
    exact key ks _ _ _
  · rw [if_neg hx, if_neg (by simpa using hx)]
    refine Sim.keysOf_bind ?_
    rw [show (h.ct (h.cct x0).1).keys = (h.view x0).ct.value.keys from (h.viewCt_keys _).symm]
    refine Sim.lift_bind fun ids0 _ => Sim.keysOf_bind ?_
    rw [show (h.ct (h.cct x1).1).keys = (h.view x1).ct.value.keys from (h.viewCt_keys _).symm]
    refine Sim.lift_bind fun ids1 _ => Sim.level_bind (a := (h.cct x0).1) rfl fun l0 _ => ?_
    refine Sim.bind (hoistInto_sim (a := (h.cct x0).1) rfl l0 _ _) ?_
    rintro h' ⟨ks, p0⟩ _ ⟨rfl, rfl⟩
    dsimp only
    refine Sim.level_bind (a := (h'.cct x1).1) rfl fun l1 _ => ?_
    refine Sim.bind (hoistInto_sim (a := (h'.cct x1).1) rfl l1 _ _) ?_
    rintro h'' ⟨ks, p1⟩ _ ⟨rfl, rfl⟩
    exact key ks _ _ _

/-! ## Rotation, conjugation, hoisting -/

/-- The binary loop of `rotate` on pointers. -/
theorem rotBits_sim {t b : ℕ} (ot : h0.Own t) (ob : h0.Own b)
    (hd : Disjoint (h0.polys t) (h0.polys b)) (prm : CPar C) (rkSet : RotationKeySet (RotKey C))
    (π : Sched) (e0 : Ev C) (r : ℕ) : ∀ (k j : ℕ) (h : Heap C) (ks : KS C) (s : Ev C × Ct C × Ct C),
      (h.viewCt t = s.2.1 ∧ h.viewCt b = s.2.2 ∧ s.1 = { e0 with ksw := ks } ∧
        Wr ∅ (h0.polys t ∪ h0.polys b) h0 h) →
      Sim h (Mem.rotBits prm rkSet t b π r k j ks) (Ev.rotBits prm rkSet π r k j s)
        fun h' ks s => h'.viewCt t = s.2.1 ∧ h'.viewCt b = s.2.2 ∧ s.1 = { e0 with ksw := ks } ∧
          Wr ∅ (h0.polys t ∪ h0.polys b) h0 h' := by
  induction r using Nat.strong_induction_on with
  | _ r ih =>
    rintro k j h ks ⟨ev, tmp, out⟩ ⟨vt, vb, rfl, w⟩
    rw [Mem.rotBits, Ev.rotBits]
    by_cases hr : 0 < r
    · rw [if_pos hr, if_pos hr]
      by_cases h2 : r % 2 ≠ 0
      · rw [if_pos h2, if_pos h2]
        simp only [pure_bind]
        dsimp only at vt vb ⊢
        refine Sim.keysOf_bind ?_
        rw [← Heap.viewCt_keys, vt]
        have hdh : Disjoint (h.polys t) (h.polys b) := by rw [w.polys, w.polys]; exact hd
        have rt : Rd b h t := ⟨by rw [w.ct]; exact ot.1, hdh⟩
        have rot := ksRotate_sim (w.own ob) rt (Upd.refl b h) prm.crs ks k rkSet
          ((π.sub (2 * j)).rotOrd tmp)
        rw [vt, vb] at rot
        refine Sim.bind rot ?_
        rintro h1 ks1 ⟨_, out1⟩ ⟨rfl, hu1⟩
        dsimp only at hu1 ⊢
        refine Sim.keysOf_bind ?_
        rw [← Heap.viewCt_keys, hu1.1]
        have vt1 : h1.viewCt t = tmp := (hu1.read rt).trans vt
        have w1 : Wr ∅ (h0.polys t ∪ h0.polys b) h0 h1 := by
          refine w.trans (hu1.2.mono subset_rfl ?_)
          rw [w.polys]; exact Set.subset_union_right
        have rb : Rd t h1 b := by
          refine ⟨by rw [w1.ct]; exact ob.1, ?_⟩
          rw [w1.polys, w1.polys]; exact hd.symm
        have cp := copyInto_sim (w1.own ot) rb (Upd.refl t h1) (π.f (2 * j + 1) out1.value.keys)
        rw [vt1, hu1.1] at cp
        refine Sim.bind cp ?_
        rintro h3 _ tmp' hu3
        refine ih _ (Nat.div_lt_self hr (by omega)) _ _ h3 ks1 _ ⟨hu3.1, ?_, rfl, ?_⟩
        · exact (hu3.read rb).trans hu1.1
        · refine w1.trans (hu3.2.mono subset_rfl ?_)
          rw [w1.polys]; exact Set.subset_union_left
      · rw [if_neg h2, if_neg h2]
        exact ih _ (Nat.div_lt_self hr (by omega)) _ _ h ks _ ⟨vt, vb, rfl, w⟩
    · rw [if_neg hr, if_neg hr]
      exact Sim.pure ⟨vt, vb, rfl, w⟩

/-- `rotate` on pointers, into a ciphertext that shares nothing with the input. -/
theorem rotate_sim {ev : HEv C} (ok : PoolOk h ev.toPools) {x y : ℕ} (sx : Sep h ev.toPools x)
    (sy : Sep h ev.toPools y) (ho : h.Own (h.cct y).1)
    (hd : Disjoint (h.polys (h.cct x).1) (h.polys (h.cct y).1))
    (prm : CPar C) (rotidx : ℤ) (rkSet : RotationKeySet (RotKey C)) (π : Sched) :
    Sim h (Mem.rotate prm ev x rotidx rkSet y π)
      ((h.viewEv ev).rotate prm (h.view x) rotidx rkSet (h.view y) π)
      fun h' t r => t.toPools = ev.toPools ∧ h'.viewEv t = r.1 ∧ h'.view y = r.2 ∧
        EvFr ev.toPools ∅ (h.polys (h.cct y).1) h h' := by
  have ra : Rd (h.cct y).1 h (h.cct x).1 := ⟨sx.valid.wf, hd⟩
  unfold Mem.rotate Ev.rotate
  refine Sim.ctOf_bind (Sim.ctOf_bind ?_)
  dsimp only
  refine Sim.keysOf_bind ?_
  rw [show (h.ct (h.cct x).1).keys = (h.view x).ct.value.keys from (h.viewCt_keys _).symm]
  have fin : ∀ (h' : Heap C) (ks : KS C) (out : Ct C), Upd (h.cct y).1 h h' out →
      h'.viewEv ({ ev with ksw := ks } : HEv C) = { h.viewEv ev with ksw := ks } ∧
        h'.view y = ⟨out, (h.view y).scale⟩ ∧ EvFr ev.toPools ∅ (h.polys (h.cct y).1) h h' := by
    intro h' ks out hu
    refine ⟨by rw [Heap.viewEv_ksw, hu.2.viewEv ok sy], ?_, EvFr.ofWr ok hu.2⟩
    unfold Heap.view; rw [hu.2.cct y (by simp), hu.1]
  split
  · refine Sim.bind (copyInto_sim ho ra (Upd.refl _ h) _) ?_
    intro h' _ out hu
    obtain ⟨a, b, c⟩ := fin h' ev.ksw out hu
    exact Sim.pure ⟨rfl, a, b, c⟩
  · split
    · refine Sim.bind (ksRotate_sim ho ra (Upd.refl _ h) prm.crs ev.ksw _ rkSet
        ((π.sub 1).rotOrd (h.view x).ct)) ?_
      rintro h' ks ⟨_, out⟩ ⟨rfl, hu⟩
      obtain ⟨a, b, c⟩ := fin h' ks out hu
      exact Sim.pure ⟨rfl, a, b, c⟩
    · refine Sim.bind (copyNewC_sim sx.valid sx.lt _) ?_
      intro h1 z c n
      refine Sim.ctOf_bind ?_
      have w1 := EvFr.ofFr ok n.fr
      have pb : h1.polys (h.cct y).1 = h.polys (h.cct y).1 := n.fr.polys sy.valid (by simp)
      have rb := rotBits_sim (h0 := h1) (t := (h1.cct z).1) (b := (h.cct y).1) n.own
        (n.fr.own sy.valid (by simp) ho) (n.disj sy.valid).symm prm rkSet (π.sub 3) (h.viewEv ev)
        (normIdx (C.N / 2) rotidx).toNat 1 0 h1 ev.ksw (h.viewEv ev, c.ct, (h.view y).ct)
        ⟨by rw [← n.view]; rfl, sy.viewCt w1 (by simp), rfl, Wr.refl _ _ _⟩
      refine Sim.bind rb ?_
      rintro h2 ks ⟨_, tmp, out⟩ ⟨_, vb, rfl, w⟩
      dsimp only at vb ⊢
      have sz := n.sep ok
      have sy1 := sy.step w1
      have ey := sy.cct_eq w1
      have hq : ev.polyQ ∉ h1.polys (h1.cct z).1 ∪ h1.polys (h.cct y).1 := by
        rintro (hq | hq)
        · exact sz.polyQ hq
        · rw [← ey] at hq; exact sy1.polyQ hq
      have hp : Disjoint (h1.polys ev.pool) (h1.polys (h1.cct z).1 ∪ h1.polys (h.cct y).1) := by
        rw [Set.disjoint_union_right]
        refine ⟨sz.disj.symm, ?_⟩
        rw [← ey]; exact sy1.disj.symm
      refine Sim.pure ⟨rfl, ?_, ?_, ?_⟩
      · rw [Heap.viewEv_ksw, ← n.viewEv ok]
        unfold Heap.viewEv
        rw [w.viewCt w1.ok.valid.wf hp, w.poly _ hq]
      · unfold Heap.view
        rw [w.cct y (by simp), n.fr.cct y sy.lt (by simp), vb]
      · refine (w1.mono subset_rfl (Set.empty_subset _)).trans (EvFr.ofWr w1.ok w) (by simp) ?_
        rintro p hlt (hp | hp)
        · exact absurd hlt (not_lt.mpr (n.polys p hp))
        · rwa [pb] at hp

theorem RotateNew_sim {ev : HEv C} (ok : PoolOk h ev.toPools) {x : ℕ} (sx : Sep h ev.toPools x)
    (prm : CPar C) (rotidx : ℤ) (rkSet : RotationKeySet (RotKey C)) (π : Sched) :
    Sim h (Mem.RotateNew prm ev x rotidx rkSet π)
      ((h.viewEv ev).RotateNew prm (h.view x) rotidx rkSet π) (ResEv ev h) := by
  unfold Mem.RotateNew Ev.RotateNew
  refine Sim.ctOf_bind (Sim.keysOf_bind ?_)
  rw [show (h.ct (h.cct x).1).keys = (h.view x).ct.value.keys from (h.viewCt_keys _).symm]
  refine Sim.lift_bind fun ids _ => Sim.level_bind (a := (h.cct x).1) rfl fun l _ => ?_
  refine Sim.scaleOf_bind ?_
  exact Sim.bind (newCCiphertext_sim h l (π.f 1 (GoMap.keys ids)) (h.cct x).2) (k' := fun out =>
      (h.viewEv ev).rotate prm (h.view x) rotidx rkSet out (π.sub 2)) (R := ResEv ev h) (by
    intro h1 y c n
    have w1 := EvFr.ofFr ok n.fr
    have rs := rotate_sim w1.ok (sx.step w1) (n.sep ok) n.own
      (by rw [sx.cct_eq w1]; exact n.disj sx.valid) prm rotidx rkSet (π.sub 2)
    rw [sx.view w1 (by simp) (by simp), n.viewEv ok, n.view] at rs
    have fin := Sim.bind rs (k := fun ev => (pure (ev, y) : HM C (HEv C × ℕ)))
      (k' := fun r => .ok r) (R := ResEv ev h)
      fun h2 _ r ⟨a, b, d, w⟩ => Sim.pure ⟨a, b, n.res ok (by simp) w d⟩
    rwa [show (fun r => (.ok r : Go (Ev C × CCt C))) = pure from rfl, bind_pure] at fin)

/-- `rotateHoisted` on pointers. -/
theorem rotateHoisted_sim {ev : HEv C} (ok : PoolOk h ev.toPools) {x y : ℕ} (sx : Sep h ev.toPools x)
    (sy : Sep h ev.toPools y) (ho : h.Own (h.cct y).1)
    (hd : Disjoint (h.polys (h.cct x).1) (h.polys (h.cct y).1))
    (prm : CPar C) (rotidx : ℤ) (H : HoistedCt C) (rkSet : RotationKeySet (RotKey C)) (π : Sched) :
    Sim h (Mem.rotateHoisted prm ev x rotidx H rkSet y π)
      ((h.viewEv ev).rotateHoisted prm (h.view x) rotidx H rkSet (h.view y) π)
      fun h' t r => t.toPools = ev.toPools ∧ h'.viewEv t = r.1 ∧ h'.view y = r.2 ∧
        EvFr ev.toPools ∅ (h.polys (h.cct y).1) h h' := by
  have ra : Rd (h.cct y).1 h (h.cct x).1 := ⟨sx.valid.wf, hd⟩
  unfold Mem.rotateHoisted Ev.rotateHoisted
  refine Sim.ctOf_bind (Sim.ctOf_bind ?_)
  dsimp only
  refine Sim.keysOf_bind ?_
  rw [show (h.ct (h.cct x).1).keys = (h.view x).ct.value.keys from (h.viewCt_keys _).symm]
  have fin : ∀ (h' : Heap C) (ks : KS C) (out : Ct C), Upd (h.cct y).1 h h' out →
      h'.viewEv ({ ev with ksw := ks } : HEv C) = { h.viewEv ev with ksw := ks } ∧
        h'.view y = ⟨out, (h.view y).scale⟩ ∧ EvFr ev.toPools ∅ (h.polys (h.cct y).1) h h' := by
    intro h' ks out hu
    refine ⟨by rw [Heap.viewEv_ksw, hu.2.viewEv ok sy], ?_, EvFr.ofWr ok hu.2⟩
    unfold Heap.view; rw [hu.2.cct y (by simp), hu.1]
  split
  · refine Sim.bind (copyInto_sim ho ra (Upd.refl _ h) _) ?_
    intro h' _ out hu
    obtain ⟨a, b, c⟩ := fin h' ev.ksw out hu
    exact Sim.pure ⟨rfl, a, b, c⟩
  · split
    · refine Sim.bind (ksRotateHoisted_sim ho ra (Upd.refl _ h) prm.crs ev.ksw _ H rkSet
        ((π.sub 1).rotOrd (h.view x).ct)) ?_
      rintro h' ks ⟨_, out⟩ ⟨rfl, hu⟩
      obtain ⟨a, b, c⟩ := fin h' ks out hu
      exact Sim.pure ⟨rfl, a, b, c⟩
    · exact Sim.error

theorem RotateHoistedNew_sim {ev : HEv C} (ok : PoolOk h ev.toPools) {x : ℕ}
    (sx : Sep h ev.toPools x) (prm : CPar C) (rotidx : ℤ) (H : HoistedCt C)
    (rkSet : RotationKeySet (RotKey C)) (π : Sched) :
    Sim h (Mem.RotateHoistedNew prm ev x rotidx H rkSet π)
      ((h.viewEv ev).RotateHoistedNew prm (h.view x) rotidx H rkSet π) (ResEv ev h) := by
  unfold Mem.RotateHoistedNew Ev.RotateHoistedNew
  refine Sim.ctOf_bind (Sim.keysOf_bind ?_)
  rw [show (h.ct (h.cct x).1).keys = (h.view x).ct.value.keys from (h.viewCt_keys _).symm]
  refine Sim.lift_bind fun ids _ => Sim.level_bind (a := (h.cct x).1) rfl fun l _ => ?_
  refine Sim.scaleOf_bind ?_
  exact Sim.bind (newCCiphertext_sim h l (π.f 1 (GoMap.keys ids)) (h.cct x).2) (k' := fun out =>
      (h.viewEv ev).rotateHoisted prm (h.view x) rotidx H rkSet out (π.sub 2)) (R := ResEv ev h) (by
    intro h1 y c n
    have w1 := EvFr.ofFr ok n.fr
    have rs := rotateHoisted_sim w1.ok (sx.step w1) (n.sep ok) n.own
      (by rw [sx.cct_eq w1]; exact n.disj sx.valid) prm rotidx H rkSet (π.sub 2)
    rw [sx.view w1 (by simp) (by simp), n.viewEv ok, n.view] at rs
    have fin := Sim.bind rs (k := fun ev => (pure (ev, y) : HM C (HEv C × ℕ)))
      (k' := fun r => .ok r) (R := ResEv ev h)
      fun h2 _ r ⟨a, b, d, w⟩ => Sim.pure ⟨a, b, n.res ok (by simp) w d⟩
    rwa [show (fun r => (.ok r : Go (Ev C × CCt C))) = pure from rfl, bind_pure] at fin)

theorem ConjugateNew_sim {ev : HEv C} (ok : PoolOk h ev.toPools) {x : ℕ} (sx : Sep h ev.toPools x)
    (prm : CPar C) (ckSet : KeySet (ConjKey C)) (π : Sched) :
    Sim h (Mem.ConjugateNew prm ev x ckSet π)
      ((h.viewEv ev).ConjugateNew prm (h.view x) ckSet π) (ResEv ev h) := by
  unfold Mem.ConjugateNew Ev.ConjugateNew
  refine Sim.ctOf_bind (Sim.keysOf_bind ?_)
  rw [show (h.ct (h.cct x).1).keys = (h.view x).ct.value.keys from (h.viewCt_keys _).symm]
  refine Sim.lift_bind fun ids _ => Sim.level_bind (a := (h.cct x).1) rfl fun l _ => ?_
  refine Sim.scaleOf_bind ?_
  refine Sim.bind (newCCiphertext_sim h l (π.f 1 (GoMap.keys ids)) (h.cct x).2) (k' := fun out => do
      let (ksw, r) ← (h.viewEv ev).ksw.Conjugate prm.crs (h.view x).ct ckSet out.ct
        ((π.sub 2).rotOrd (h.view x).ct)
      return ({ h.viewEv ev with ksw := ksw }, ⟨r, out.scale⟩)) (R := ResEv ev h) ?_
  · intro h1 y c n
    have w1 := EvFr.ofFr ok n.fr
    refine Sim.ctOf_bind ?_
    have vx : h1.viewCt (h.cct x).1 = (h.view x).ct := sx.viewCt w1 (by simp)
    have vy : h1.viewCt (h1.cct y).1 = c.ct := by rw [← n.view]; rfl
    have ra : Rd (h1.cct y).1 h1 (h.cct x).1 :=
      ⟨(n.fr.valid sx.valid (by simp)).wf, n.disj sx.valid⟩
    have cj := ksConjugate_sim n.own ra prm.crs ev.ksw ckSet ((π.sub 2).rotOrd (h.view x).ct)
    rw [vx, vy] at cj
    refine Sim.bind cj ?_
    rintro h2 ks ⟨_, r⟩ ⟨rfl, hu⟩
    dsimp only at hu ⊢
    refine Sim.pure ⟨rfl, ?_, n.res ok (B := ∅) (by simp) (EvFr.ofWr w1.ok hu.2) ?_⟩
    · rw [Heap.viewEv_ksw, hu.2.viewEv w1.ok (n.sep ok), n.viewEv ok]
    · unfold Heap.view; rw [hu.2.cct y (by simp), hu.1, ← n.view]; rfl

theorem HoistedForm_sim {ev : HEv C} {x : ℕ} (π : Sched) :
    Sim h (Mem.HoistedForm ev x π) ((h.viewEv ev).HoistedForm (h.view x) π)
      fun h' t r => h' = h ∧ t.1.toPools = ev.toPools ∧ h.viewEv t.1 = r.1 ∧ t.2 = r.2 := by
  unfold Mem.HoistedForm Ev.HoistedForm
  refine Sim.ctOf_bind (Sim.keysOf_bind ?_)
  rw [show (h.ct (h.cct x).1).keys = (h.view x).ct.value.keys from (h.viewCt_keys _).symm]
  refine Sim.lift_bind fun ids _ => ?_
  refine Sim.bind (Sim.forEach (R := RelK h) _ ?_ ⟨rfl, rfl⟩) ?_
  · rintro id _ h' s _ ⟨rfl, rfl⟩
    dsimp only
    refine Sim.level_bind (a := (h'.cct x).1) rfl fun l _ => ?_
    refine Sim.load_bind (a := (h'.cct x).1) rfl fun v _ => ?_
    exact Sim.lift_bind fun ad _ => Sim.pure ⟨rfl, rfl⟩
  · rintro h' ⟨ks, H⟩ _ ⟨rfl, rfl⟩
    exact Sim.pure ⟨rfl, rfl, rfl, rfl⟩

/-! ## Decryption -/

/-- `delete(ct.Value, id)` on pointers. -/
theorem viewCt_delKey {h : Heap C} {a : ℕ} (id : String) :
    ({ h with ct := Function.update h.ct a ((h.ct a).del id) } : Heap C).viewCt a =
      ⟨(h.viewCt a).value.del id⟩ := by
  unfold Heap.viewCt GoMap.mapVals GoMap.del
  simp only [Function.update_self]
  rw [List.filter_map]
  rfl

theorem polys_delKey {h : Heap C} {a : ℕ} (id : String) :
    ({ h with ct := Function.update h.ct a ((h.ct a).del id) } : Heap C).polys a ⊆ h.polys a := by
  rintro p ⟨k, hk⟩
  simp only [Function.update_self] at hk
  rw [GoMap.get?_del] at hk
  split at hk
  · cases hk
  · exact ⟨k, hk⟩

theorem own_delKey {h : Heap C} {a : ℕ} (ho : h.Own a) (id : String) :
    ({ h with ct := Function.update h.ct a ((h.ct a).del id) } : Heap C).Own a := by
  unfold Heap.Own
  simp only [Function.update_self]
  refine ⟨ho.1.del id, fun k k' p hk hk' => ?_⟩
  rw [GoMap.get?_del] at hk hk'
  split at hk
  · cases hk
  · split at hk'
    · cases hk'
    · exact ho.2 k k' p hk hk'

/-- The state of a ciphertext while its components are decrypted and deleted. -/
structure DecSt (t : ℕ) (h0 h : Heap C) (c : Ct C) : Prop where
  view : h.viewCt t = c
  own : h.Own t
  polys : h.polys t ⊆ h0.polys t
  next : h.next = h0.next
  cct : h.cct = h0.cct
  fr : Fr {t} ∅ (h0.polys t) h0 h

theorem DecSt.refl {t : ℕ} (ho : h.Own t) : DecSt t h h (h.viewCt t) :=
  ⟨rfl, ho, subset_rfl, rfl, rfl, Fr.refl _ _ _ _⟩

theorem DecSt.trans {t : ℕ} {h1 h2 : Heap C} {c c' : Ct C} (d : DecSt t h h1 c)
    (d' : DecSt t h1 h2 c') : DecSt t h h2 c' :=
  ⟨d'.view, d'.own, d'.polys.trans d.polys, d'.next.trans d.next, d'.cct.trans d.cct,
    d.fr.trans d'.fr (fun _ _ h => h) (fun _ _ h => h) fun _ _ h => d.polys h⟩

/-- `PartialDecrypt` on pointers. -/
theorem partialDecrypt_sim {t : ℕ} (ho : h.Own t) (sk : SecretKey C) :
    Sim h (Mem.partialDecrypt t sk) (PartialDecrypt (h.viewCt t) sk)
      fun h' _ c => DecSt t h h' c := by
  unfold Mem.partialDecrypt PartialDecrypt
  dsimp only
  refine Sim.level_bind rfl fun l _ => Sim.load_bind rfl fun c hc => ?_
  obtain ⟨c1, hc1⟩ : ∃ c1, c1 = if !c.isNTT then c.nttLvl C.nttQ l c else c := ⟨_, rfl⟩
  rw [← hc1]
  refine Sim.store_upd (Upd.refl t h) ho hc fun h1 u1 => ?_
  refine Sim.load_val u1.1 (GoMap.get?_set_self _ _ _) ?_
  refine Sim.store_upd u1 ho (GoMap.get?_set_self _ _ _) fun h2 u2 => ?_
  refine Sim.load_val u2.1 (GoMap.get?_set_self _ _ _) ?_
  refine Sim.store_upd u2 ho (GoMap.get?_set_self _ _ _) fun h3 u3 => ?_
  simp only [GoMap.set_set] at u3
  refine Sim.load_bind u3.1 fun c0 hc0 => Sim.load_bind u3.1 fun c2 _ => ?_
  refine Sim.store_upd u3 ho hc0 fun h4 u4 => ?_
  refine show DecSt _ _ _ _ from ⟨?_, own_delKey (u4.2.own ho) _, ?_, u4.2.next, ?_, ?_⟩
  · rw [viewCt_delKey, u4.1]
  · exact (polys_delKey _).trans (u4.2.polys t).subset
  · funext a; exact u4.2.cct a (by simp)
  · refine ⟨u4.2.next.ge, fun a _ ha => ?_, fun a _ ha => u4.2.cct a ha, fun a _ ha => u4.2.poly a ha⟩
    show Function.update h4.ct t _ a = _
    rw [Function.update_of_ne (by simpa using ha), u4.2.ct]

theorem decryptLoop_sim {t : ℕ} (idset : IDSet) (skSet : KeySet (SecretKey C)) (o : List String) :
    ∀ {h : Heap C}, h.Own t →
      Sim h (Mem.forEach o (fun k (_ : Unit) => do
          let sk ← lift (skSet.value.deref k)
          if idset.Has sk.id then Mem.partialDecrypt t sk else pure ()) ())
        (decryptLoop idset skSet (h.viewCt t) o) fun h' _ c => DecSt t h h' c := by
  induction o with
  | nil => intro h ho; exact DecSt.refl ho
  | cons k o ih =>
    intro h ho
    unfold Mem.forEach decryptLoop
    rw [bind_assoc]
    refine Sim.lift_bind fun sk _ => ?_
    split
    · refine Sim.bind (partialDecrypt_sim ho sk) ?_
      intro h1 _ c d
      have := ih d.own
      rw [d.view] at this
      exact this.mono fun _ _ _ d' => d.trans d'
    · rw [pure_bind]; exact ih ho

theorem decrypt_sim {a : ℕ} (hv : h.Valid a) (skSet : KeySet (SecretKey C)) (pt : RQ C)
    (oS : List String) (π : Sched) :
    Sim h (Mem.decrypt a skSet pt oS π)
      (MK.Decrypt (h.viewCt a) skSet pt (π.f 1 (h.viewCt a).value.keys)
        (π.f 2 (h.viewCt a).value.keys) oS)
      fun h' v w => v = w ∧ Fr ∅ ∅ ∅ h h' := by
  unfold Mem.decrypt MK.Decrypt
  refine Sim.level_bind rfl fun l _ => ?_
  dsimp only
  refine Sim.keysOf_bind ?_
  rw [Heap.viewCt_keys]
  refine Sim.bind (copyNew_sim hv _) ?_
  intro h1 t c n
  refine Sim.keysOf_bind ?_
  rw [n.fr.ct_eq hv (by simp)]
  refine Sim.lift_bind fun ids _ => ?_
  have lp := decryptLoop_sim (t := t) ids skSet oS n.own
  rw [n.view] at lp
  refine Sim.bind lp ?_
  intro h2 _ d dd
  refine Sim.keysOf_bind ?_
  have hk : (h2.ct t).keys.length = d.value.size := by
    rw [← Heap.viewCt_keys, dd.view]; simp [GoMap.keys, GoMap.size]
  rw [hk]
  split
  · exact Sim.error
  · refine Sim.load_bind dd.view fun c0 _ => Sim.pure ⟨rfl, ?_⟩
    refine n.fr.trans dd.fr (fun x hx hm => ?_) (fun _ _ h => h) (fun x hx hm => ?_)
    · rw [Set.mem_singleton_iff] at hm
      exact absurd n.fresh (not_le.mpr (hm ▸ hx))
    · exact absurd (n.polys x hm) (not_le.mpr hx)

/-- `Decrypt` of mkckks on pointers: the same message, and nothing allocated before is written. -/
theorem Decrypt_sim {Msg : Type} (E : Encoder C Msg) (dec : CDec C) {x : ℕ}
    (hv : h.Valid (h.cct x).1) (hx : x < h.next) (skSet : KeySet (SecretKey C)) (π : Sched) :
    Sim h (Mem.Decrypt E dec x skSet π) (dec.Decrypt E (h.view x) skSet π)
      fun h' v w => v = w ∧ Fr ∅ ∅ ∅ h h' := by
  unfold Mem.Decrypt CDec.Decrypt
  refine Sim.ctOf_bind (Sim.keysOf_bind ?_)
  rw [show (h.ct (h.cct x).1).keys = (h.view x).ct.value.keys from (h.viewCt_keys _).symm]
  refine Sim.bind (copyNewC_sim hv hx _) ?_
  intro h1 z c n
  refine Sim.ctOf_bind ?_
  have hc : h1.viewCt (h1.cct z).1 = c.ct := by rw [← n.view]; rfl
  have ds := decrypt_sim n.valid skSet dec.pool (π.f 3 skSet.value.keys) π
  rw [hc] at ds
  refine Sim.bind ds ?_
  rintro h2 p _ ⟨rfl, w⟩
  refine Sim.scaleOf_bind ?_
  rw [w.cct z n.lt (by simp), show (h1.cct z).2 = c.scale by rw [← n.view]; rfl]
  exact Sim.pure ⟨rfl, n.fr.trans w (fun _ _ h => h) (fun _ _ h => h) fun _ _ h => h⟩

end MK
