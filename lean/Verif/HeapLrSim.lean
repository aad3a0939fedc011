import Verif.HeapLr

/-!
# The programs on pointers and on values, side by side

The memory changes while a program runs, so the relation between pointers and values is indexed by
the memory: `RC P w x c` says that in the memory `w` the ciphertext `x` shares nothing with the pools
and has value `c`.  It survives every later operation (`RC.step`).
-/

noncomputable section

namespace MK.Lr

variable {C : Ctx} {P : Pools} {α β γ δ : Type}

/-- The evaluator, its pools read from the memory. -/
def PMach.abs (h : Heap C) (m : PMach C) : Mach C := ⟨h.viewEv m.ev, m.rlk, m.tick, m.prods⟩

/-- `x` is a ciphertext of value `c` that shares nothing with the pools. -/
structure RC (P : Pools) (w : Heap C) (x : ℕ) (c : CCt C) : Prop where
  sep : Sep w P x
  view : w.view x = c

theorem RC.step {w w' : Heap C} {x : ℕ} {c : CCt C} (r : RC P w x c) (e : EvFr P ∅ ∅ w w') :
    RC P w' x c :=
  ⟨r.sep.step e, (r.sep.view e (by simp) (by simp)).trans r.view⟩

theorem RC.ne {w : Heap C} {x y : ℕ} {c : CCt C} (r : RC P w x c) (n : w.next ≤ y) : x ≠ y :=
  (r.sep.lt.trans_le n).ne

/-- Related final states: the pools are where they were, the machines agree, the results are
related. -/
def KQ (P : Pools) (w : Heap C) (R : Heap C → α → β → Prop) (h' : Heap C) (t : α × PMach C)
    (r : β × Mach C) : Prop :=
  EvFr P ∅ ∅ w h' ∧ t.2.ev.toPools = P ∧ r.2 = t.2.abs h' ∧ R h' t.1 r.1

/-- The computation on pointers, started in memory `w`, does what the computation on values does. -/
def KSim (P : Pools) (w : Heap C) (m₁ : StateT (PMach C) (HM C) α) (m₂ : StateT (Mach C) Go β)
    (R : Heap C → α → β → Prop) : Prop :=
  ∀ s : PMach C, s.ev.toPools = P → PoolOk w P → Sim w (m₁ s) (m₂ (s.abs w)) (KQ P w R)

theorem EvFr.empty_trans {h h' h'' : Heap C} (e : EvFr P ∅ ∅ h h') (f : EvFr P ∅ ∅ h' h'') :
    EvFr P ∅ ∅ h h'' :=
  e.trans f (by simp) (by simp)

theorem KSim.pure {w : Heap C} {a : α} {b : β} {R : Heap C → α → β → Prop} (hr : R w a b) :
    KSim P w (Pure.pure a) (Pure.pure b) R := by
  intro s hs ok
  exact ⟨EvFr.refl ok _ _, hs, rfl, hr⟩

theorem KSim.bind {w : Heap C} {m₁ : StateT (PMach C) (HM C) α} {m₂ : StateT (Mach C) Go β}
    {f₁ : α → StateT (PMach C) (HM C) γ} {f₂ : β → StateT (Mach C) Go δ}
    {R : Heap C → α → β → Prop} {R' : Heap C → γ → δ → Prop} (h : KSim P w m₁ m₂ R)
    (k : ∀ w' a b, EvFr P ∅ ∅ w w' → R w' a b → KSim P w' (f₁ a) (f₂ b) R') :
    KSim P w (m₁ >>= f₁) (m₂ >>= f₂) R' := by
  intro s hs ok
  refine Sim.bind (k := fun r => f₁ r.1 r.2) (k' := fun r => f₂ r.1 r.2) (h s hs ok) ?_
  rintro h' ⟨a, t⟩ ⟨b, r⟩ ⟨e, ht, hr, hR⟩
  dsimp only at ht hr hR ⊢
  subst hr
  refine Sim.mono (k h' a b e hR t ht e.ok) ?_
  rintro h'' t' r' ⟨e', ht', hr', hR'⟩
  exact ⟨EvFr.empty_trans e e', ht', hr', hR'⟩

theorem KSim.mono {w : Heap C} {m₁ : StateT (PMach C) (HM C) α} {m₂ : StateT (Mach C) Go β}
    {R R' : Heap C → α → β → Prop} (h : KSim P w m₁ m₂ R)
    (hq : ∀ w' a b, EvFr P ∅ ∅ w w' → R w' a b → R' w' a b) : KSim P w m₁ m₂ R' := by
  intro s hs ok
  refine Sim.mono (h s hs ok) ?_
  rintro h'' t' r' ⟨e', ht', hr', hR'⟩
  exact ⟨e', ht', hr', hq _ _ _ e' hR'⟩

/-- The result of an operation: a new object. -/
def New (P : Pools) (n : ℕ) (w' : Heap C) (x : ℕ) (c : CCt C) : Prop := RC P w' x c ∧ n ≤ x

theorem ptrLevel_bind {w : Heap C} {x : ℕ} {c : CCt C} (hc : w.view x = c) {k : ℕ → HM C γ}
    {k' : ℕ → Go δ} {R : Heap C → γ → δ → Prop} (hk : ∀ l, Sim w (k l) (k' l) R) :
    Sim w (ptrLevel x >>= k) (c.ct.Level >>= k') R := by
  subst hc
  unfold ptrLevel
  rw [bind_assoc]
  exact Sim.ctOf_bind (Sim.level_bind (a := (w.cct x).1) rfl fun l _ => hk l)

section ops

variable (prm : CPar C) (rkSet : RotationKeySet (RotKey C)) (sch : ℕ → Sched) {w : Heap C}

theorem mulRelin_sim {x y : ℕ} {c d : CCt C} (hx : RC P w x c) (hy : RC P w y d) :
    KSim P w ((memHE prm rkSet sch).mulRelin (decide (x = y)) x y)
      ((realHE prm rkSet sch).mulRelin (decide (x = y)) c d) (New P w.next) := by
  intro s hs ok
  subst hs
  have main := MulRelinNew_sim ok hx.sep hy.sep prm s.rlk (sch s.tick)
  rw [hx.view, hy.view] at main
  refine Sim.bind main ?_
  rintro h' ⟨ev, rlk, z⟩ ⟨ev', rlk', z'⟩ ⟨hrlk, hp, hv, n⟩
  dsimp only at hrlk hp hv n ⊢
  subst hrlk
  refine ptrLevel_bind (hx.step n.fr).view fun la => ?_
  refine ptrLevel_bind (hy.step n.fr).view fun lb => ?_
  refine ptrLevel_bind n.view fun l => ?_
  exact ⟨n.fr, hp, by rw [← hv]; rfl, ⟨n.sep, n.view⟩, n.fresh⟩

theorem mul_sim {x y : ℕ} {c d : CCt C} (hx : RC P w x c) (hy : RC P w y d) (hxy : x ≠ y) :
    KSim P w ((memHE prm rkSet sch).mulRelin false x y)
      ((realHE prm rkSet sch).mulRelin false c d) (New P w.next) := by
  have h := mulRelin_sim prm rkSet sch hx hy
  rwa [decide_eq_false hxy] at h

theorem sq_sim {x : ℕ} {c : CCt C} (hx : RC P w x c) :
    KSim P w ((memHE prm rkSet sch).mulRelin true x x)
      ((realHE prm rkSet sch).mulRelin true c c) (New P w.next) := by
  have h := mulRelin_sim prm rkSet sch hx hx
  rwa [decide_eq_true rfl] at h

theorem mulPtxt_sim {x : ℕ} {c : CCt C} (hx : RC P w x c) (p : RQ C × ℚ) :
    KSim P w ((memHE prm rkSet sch).mulPtxt x p) ((realHE prm rkSet sch).mulPtxt c p)
      (New P w.next) := by
  intro s hs ok
  subst hs
  have main := MulPtxtNew_sim ok hx.sep prm p.1 p.2 (sch s.tick)
  rw [hx.view] at main
  refine Sim.bind main ?_
  rintro h' ⟨ev, z⟩ ⟨ev', z'⟩ ⟨hp, hv, n⟩
  dsimp only at hp hv n ⊢
  refine ptrLevel_bind (hx.step n.fr).view fun la => ?_
  refine ptrLevel_bind n.view fun l => ?_
  exact ⟨n.fr, hp, by rw [← hv]; rfl, ⟨n.sep, n.view⟩, n.fresh⟩

theorem add_sim {x y : ℕ} {c d : CCt C} (hx : RC P w x c) (hy : RC P w y d) :
    KSim P w ((memHE prm rkSet sch).add x y) ((realHE prm rkSet sch).add c d) (New P w.next) := by
  intro s hs ok
  subst hs
  have main := AddNew_sim ok hx.sep hy.sep prm (sch s.tick)
  rw [hx.view, hy.view] at main
  refine Sim.bind main ?_
  rintro h' ⟨ev, z⟩ ⟨ev', z'⟩ ⟨hp, hv, n⟩
  dsimp only at hp hv n ⊢
  exact ⟨n.fr, hp, by rw [← hv]; rfl, ⟨n.sep, n.view⟩, n.fresh⟩

theorem rotate_sim {x : ℕ} {c : CCt C} (hx : RC P w x c) (k : ℤ) :
    KSim P w ((memHE prm rkSet sch).rotate x k) ((realHE prm rkSet sch).rotate c k)
      (New P w.next) := by
  intro s hs ok
  subst hs
  have main := RotateNew_sim ok hx.sep prm k rkSet (sch s.tick)
  rw [hx.view] at main
  refine Sim.bind main ?_
  rintro h' ⟨ev, z⟩ ⟨ev', z'⟩ ⟨hp, hv, n⟩
  dsimp only at hp hv n ⊢
  exact ⟨n.fr, hp, by rw [← hv]; rfl, ⟨n.sep, n.view⟩, n.fresh⟩

/-! ## Loops -/

theorem forDouble_ksim {R : Heap C → α → β → Prop} (n : ℕ) {body : ℕ → α → StateT (PMach C) (HM C) α}
    {body' : ℕ → β → StateT (Mach C) Go β}
    (step : ∀ i w a b, R w a b → KSim P w (body i a) (body' i b) R) (i : ℕ) {w : Heap C} {a : α}
    {b : β} (hr : R w a b) : KSim P w (forDouble n i body a) (forDouble n i body' b) R := by
  induction h : n - i using Nat.strong_induction_on generalizing i w a b with
  | _ t ih =>
    rw [forDouble, forDouble]
    by_cases hc : i < n ∧ 0 < i
    · rw [dif_pos hc, dif_pos hc]
      refine KSim.bind (step i w a b hr) fun w' a' b' _ hr' => ?_
      exact ih (n - i * 2) (by omega) (i * 2) hr' rfl
    · rw [dif_neg hc, dif_neg hc]
      exact KSim.pure hr

theorem forUp_ksim {R : Heap C → α → β → Prop} (n : ℕ) {body : ℕ → α → StateT (PMach C) (HM C) α}
    {body' : ℕ → β → StateT (Mach C) Go β} {w : Heap C}
    (step : ∀ i w' a b, EvFr P ∅ ∅ w w' → R w' a b → KSim P w' (body i a) (body' i b) R) {a : α}
    {b : β} (hr : R w a b) : KSim P w (forUp n body a) (forUp n body' b) R := by
  induction n with
  | zero => exact KSim.pure hr
  | succ n ih =>
    simp only [forUp]
    exact KSim.bind ih fun w' a' b' e hr' => step n w' a' b' e hr'

theorem rotAdd_ksim (n : ℕ) (f : ℕ → ℤ) (N : ℕ) {x : ℕ} {c : CCt C} (hx : New P N w x c) :
    KSim P w
      (forDouble n 1 (fun i ct => do
        let r ← (memHE prm rkSet sch).rotate ct (f i)
        (memHE prm rkSet sch).add ct r) x)
      (forDouble n 1 (fun i ct => do
        let r ← (realHE prm rkSet sch).rotate ct (f i)
        (realHE prm rkSet sch).add ct r) c) (New P N) := by
  refine forDouble_ksim (R := New P N) n (fun i w a b h => ?_) 1 hx
  refine KSim.bind (rotate_sim prm rkSet sch h.1 (f i)) fun w1 r r' e1 n1 => ?_
  refine KSim.mono (add_sim prm rkSet sch (h.1.step e1) n1.1) fun w2 y d e2 n2 => ?_
  exact ⟨n2.1, h.2.trans (h.1.sep.lt.le.trans (e1.fr.next.trans n2.2))⟩

theorem SumRowVec_ksim (numRow numCol : ℕ) (N : ℕ) {x : ℕ} {c : CCt C} (hx : New P N w x c) :
    KSim P w (SumRowVec (memHE prm rkSet sch) x numRow numCol)
      (SumRowVec (realHE prm rkSet sch) c numRow numCol) (New P N) :=
  rotAdd_ksim prm rkSet sch numRow (fun i => ((numCol * i : ℕ) : ℤ)) N hx

theorem SumColVec_ksim (mask : RQ C × ℚ) (numCol : ℕ) {x : ℕ} {c : CCt C} (hx : RC P w x c) :
    KSim P w (SumColVec (memHE prm rkSet sch) x mask numCol)
      (SumColVec (realHE prm rkSet sch) c mask numCol) (New P w.next) := by
  unfold SumColVec
  refine KSim.bind (rotAdd_ksim prm rkSet sch numCol (fun i => (i : ℤ)) 0 ⟨hx, Nat.zero_le _⟩) ?_
  intro w1 y d e1 n1
  refine KSim.bind (mulPtxt_sim prm rkSet sch n1.1 mask) fun w2 y2 d2 e2 n2 => ?_
  exact rotAdd_ksim prm rkSet sch numCol (fun i => -(i : ℤ)) w.next
    ⟨n2.1, e1.fr.next.trans n2.2⟩

/-! ## The programs -/

/-- Related constants. -/
structure KConsts (P : Pools) (w : Heap C) (k : Consts ℕ (RQ C × ℚ)) (k' : Consts (CCt C) (RQ C × ℚ)) :
    Prop where
  mask : k.mask = k'.mask
  c3 : k.c3 = k'.c3
  c4 : ∀ a, k.c4 a = k'.c4 a
  c5 : RC P w k.c5 k'.c5
  c6 : ∀ a, k.c6 a = k'.c6 a
  c7 : ∀ a, k.c7 a = k'.c7 a
  c8 : k.c8 = k'.c8
  c9 : RC P w k.c9 k'.c9

theorem KConsts.step {w w' : Heap C} {k : Consts ℕ (RQ C × ℚ)} {k' : Consts (CCt C) (RQ C × ℚ)}
    (h : KConsts P w k k') (e : EvFr P ∅ ∅ w w') : KConsts P w' k k' :=
  ⟨h.mask, h.c3, h.c4, h.c5.step e, h.c6, h.c7, h.c8, h.c9.step e⟩

/-- Related data. -/
structure KData (P : Pools) (w : Heap C) (d : Data ℕ (RQ C × ℚ)) (d' : Data (CCt C) (RQ C × ℚ)) :
    Prop where
  z : RC P w d.z d'.z
  k1 : d.k1 = d'.k1
  k2 : ∀ a, d.k2 a = d'.k2 a

theorem KData.step {w w' : Heap C} {d : Data ℕ (RQ C × ℚ)} {d' : Data (CCt C) (RQ C × ℚ)}
    (h : KData P w d d') (e : EvFr P ∅ ∅ w w') : KData P w' d d' :=
  ⟨h.z.step e, h.k1, h.k2⟩

/-- The five results of `depth3`; the products of the next step are of different objects. -/
structure K5 (P : Pools) (w : Heap C) (t : ℕ × ℕ × ℕ × ℕ × ℕ)
    (r : CCt C × CCt C × CCt C × CCt C × CCt C) : Prop where
  z1 : RC P w t.1 r.1
  z2 : RC P w t.2.1 r.2.1
  m2 : RC P w t.2.2.1 r.2.2.1
  m1 : RC P w t.2.2.2.1 r.2.2.2.1
  s : RC P w t.2.2.2.2 r.2.2.2.2
  ne1 : t.2.2.2.1 ≠ t.2.2.1
  ne2 : t.2.2.2.2 ≠ t.2.2.1

variable {k : Consts ℕ (RQ C × ℚ)} {k' : Consts (CCt C) (RQ C × ℚ)}

theorem depth3_ksim (hk : KConsts P w k k') (numCol a : ℕ) {d : Data ℕ (RQ C × ℚ)}
    {d' : Data (CCt C) (RQ C × ℚ)} (hd : KData P w d d') {v : ℕ} {v' : CCt C} (hv : RC P w v v')
    (hne : d.z ≠ v) :
    KSim P w (depth3 (memHE prm rkSet sch) k numCol a d v) (depth3 (realHE prm rkSet sch) k' numCol a d' v')
      (K5 P) := by
  unfold depth3
  rw [hd.k1, hd.k2 a, hk.c3, hk.c4 a, hk.mask]
  have hz := hd.z
  have h5 := hk.c5
  refine KSim.bind (mul_sim prm rkSet sch hz hv hne) fun w1 m m' e1 n1 => ?_
  have hm := n1.1
  replace hz := hz.step e1
  replace h5 := h5.step e1
  refine KSim.bind (mulPtxt_sim prm rkSet sch hz _) fun w2 z1 z1' e2 n2 => ?_
  have hz1 := n2.1
  replace hz := hz.step e2
  replace h5 := h5.step e2
  replace hm := hm.step e2
  refine KSim.bind (mulPtxt_sim prm rkSet sch hz _) fun w3 z2 z2' e3 n3 => ?_
  have hz2 := n3.1
  replace hz := hz.step e3
  replace h5 := h5.step e3
  replace hm := hm.step e3
  replace hz1 := hz1.step e3
  refine KSim.bind (mulPtxt_sim prm rkSet sch hz _) fun w4 z3 z3' e4 n4 => ?_
  have hz3 := n4.1
  replace hz := hz.step e4
  replace h5 := h5.step e4
  replace hm := hm.step e4
  replace hz1 := hz1.step e4
  replace hz2 := hz2.step e4
  refine KSim.bind (mulPtxt_sim prm rkSet sch hz _) fun w5 z4 z4' e5 n5 => ?_
  have hz4 := n5.1
  replace h5 := h5.step e5
  replace hm := hm.step e5
  replace hz1 := hz1.step e5
  replace hz2 := hz2.step e5
  replace hz3 := hz3.step e5
  refine KSim.bind (SumColVec_ksim prm rkSet sch _ numCol hm) fun w6 m m' e6 n6 => ?_
  have hm := n6.1
  have q3 := hz3.ne n6.2
  have q4 := hz4.ne n6.2
  replace h5 := h5.step e6
  replace hz1 := hz1.step e6
  replace hz2 := hz2.step e6
  replace hz3 := hz3.step e6
  replace hz4 := hz4.step e6
  refine KSim.bind (sq_sim prm rkSet sch hm) fun w7 m2 m2' e7 n7 => ?_
  replace h5 := h5.step e7
  replace hz1 := hz1.step e7
  replace hz2 := hz2.step e7
  replace hz3 := hz3.step e7
  replace hz4 := hz4.step e7
  replace hm := hm.step e7
  refine KSim.bind (add_sim prm rkSet sch n7.1 h5) fun w8 m2 m2' e8 n8 => ?_
  have hm2 := n8.1
  replace hz1 := hz1.step e8
  replace hz2 := hz2.step e8
  replace hz3 := hz3.step e8
  replace hz4 := hz4.step e8
  replace hm := hm.step e8
  refine KSim.bind (mul_sim prm rkSet sch hm hz3 q3.symm) fun w9 m1 m1' e9 n9 => ?_
  have ne1 := hm2.ne n9.2
  have hm1 := n9.1
  replace hz1 := hz1.step e9
  replace hz2 := hz2.step e9
  replace hz4 := hz4.step e9
  replace hm := hm.step e9
  replace hm2 := hm2.step e9
  refine KSim.bind (mul_sim prm rkSet sch hz4 hm q4) fun w10 s s' e10 n10 => ?_
  have ne2 := hm2.ne n10.2
  exact KSim.pure ⟨hz1.step e10, hz2.step e10, hm2.step e10, hm1.step e10, n10.1, ne1.symm, ne2.symm⟩

/-- Related training states: `beta` and `v` are new since the memory had `N` objects, or the
starting objects. -/
structure KPair (P : Pools) (bad : Set ℕ) (w : Heap C) (t : ℕ × ℕ) (r : CCt C × CCt C) : Prop where
  beta : RC P w t.1 r.1
  v : RC P w t.2 r.2
  ne : t.2 ∉ bad

theorem KPair.step {bad : Set ℕ} {w w' : Heap C} {t : ℕ × ℕ} {r : CCt C × CCt C}
    (h : KPair P bad w t r) (e : EvFr P ∅ ∅ w w') : KPair P bad w' t r :=
  ⟨h.beta.step e, h.v.step e, h.ne⟩

theorem lrIter_ksim (hk : KConsts P w k k') (numRow numCol : ℕ) {d : Data ℕ (RQ C × ℚ)}
    {d' : Data (CCt C) (RQ C × ℚ)} (hd : KData P w d d') (a : ℕ) {st : ℕ × ℕ} {st' : CCt C × CCt C}
    (hs : KPair P {d.z} w st st') {bad : Set ℕ} (hb : ∀ x ∈ bad, x < w.next) :
    KSim P w (lrIter (memHE prm rkSet sch) k numRow numCol d a st)
      (lrIter (realHE prm rkSet sch) k' numRow numCol d' a st')
      (fun w' t r => KPair P bad w' t r ∧ t.1 ∉ bad) := by
  obtain ⟨beta, v⟩ := st
  obtain ⟨beta', v'⟩ := st'
  unfold lrIter
  dsimp only
  rw [hk.c6 a, hk.c7 a]
  have hv := hs.v
  have hbeta := hs.beta
  dsimp only at hv hbeta
  have hne : d.z ≠ v := fun he => hs.ne he.symm
  refine KSim.bind (depth3_ksim prm rkSet sch hk numCol a hd hv hne) ?_
  rintro w1 ⟨z1, z2, m2, m1, s⟩ ⟨z1', z2', m2', m1', s'⟩ e1 ⟨hz1, hz2, hm2, hm1, hs, ne1, ne2⟩
  dsimp only at hz1 hz2 hm2 hm1 hs ne1 ne2 ⊢
  replace hv := hv.step e1
  replace hbeta := hbeta.step e1
  refine KSim.bind (mul_sim prm rkSet sch hm1 hm2 ne1) fun w2 g g' e2 n2 => ?_
  replace hv := hv.step e2
  replace hbeta := hbeta.step e2
  replace hz1 := hz1.step e2
  replace hz2 := hz2.step e2
  replace hm2 := hm2.step e2
  replace hs := hs.step e2
  refine KSim.bind (add_sim prm rkSet sch n2.1 hz1) fun w3 g g' e3 n3 => ?_
  replace hv := hv.step e3
  replace hbeta := hbeta.step e3
  replace hz2 := hz2.step e3
  replace hm2 := hm2.step e3
  replace hs := hs.step e3
  refine KSim.bind (SumRowVec_ksim prm rkSet sch numRow numCol 0 ⟨n3.1, Nat.zero_le _⟩)
    fun w4 g g' e4 n4 => ?_
  replace hv := hv.step e4
  replace hbeta := hbeta.step e4
  replace hz2 := hz2.step e4
  replace hm2 := hm2.step e4
  replace hs := hs.step e4
  refine KSim.bind (add_sim prm rkSet sch hv n4.1) fun w5 bu bu' e5 n5 => ?_
  have hbu := n5.1
  have nbu : w.next ≤ bu := e1.fr.next.trans (e2.fr.next.trans (e3.fr.next.trans (e4.fr.next.trans n5.2)))
  have nw5 : w.next ≤ w5.next := nbu.trans hbu.sep.lt.le
  replace hv := hv.step e5
  replace hbeta := hbeta.step e5
  replace hz2 := hz2.step e5
  replace hm2 := hm2.step e5
  replace hs := hs.step e5
  refine KSim.bind (mul_sim prm rkSet sch hs hm2 ne2) fun w6 u u' e6 n6 => ?_
  replace hv := hv.step e6
  replace hbeta := hbeta.step e6
  replace hz2 := hz2.step e6
  replace hbu := hbu.step e6
  refine KSim.bind (add_sim prm rkSet sch n6.1 hz2) fun w7 u u' e7 n7 => ?_
  have hu := n7.1
  replace hv := hv.step e7
  replace hbeta := hbeta.step e7
  replace hbu := hbu.step e7
  refine KSim.bind (mulPtxt_sim prm rkSet sch hv _) fun w8 vu vu' e8 n8 => ?_
  have hvu := n8.1
  replace hu := hu.step e8
  replace hbeta := hbeta.step e8
  replace hbu := hbu.step e8
  refine KSim.bind (mulPtxt_sim prm rkSet sch hbeta _) fun w9 b1 b1' e9 n9 => ?_
  replace hu := hu.step e9
  replace hvu := hvu.step e9
  replace hbu := hbu.step e9
  refine KSim.bind (add_sim prm rkSet sch hvu n9.1) fun w10 vu vu' e10 n10 => ?_
  have hvu := n10.1
  replace hu := hu.step e10
  replace hbu := hbu.step e10
  refine KSim.bind (SumRowVec_ksim prm rkSet sch numRow numCol 0 ⟨hu, Nat.zero_le _⟩)
    fun w11 u u' e11 n11 => ?_
  replace hvu := hvu.step e11
  replace hbu := hbu.step e11
  refine KSim.bind (add_sim prm rkSet sch hvu n11.1) fun w12 vu vu' e12 n12 => ?_
  have nvu : w.next ≤ vu := nw5.trans (e6.fr.next.trans (e7.fr.next.trans (e8.fr.next.trans
    (e9.fr.next.trans (e10.fr.next.trans (e11.fr.next.trans n12.2))))))
  exact KSim.pure ⟨⟨hbu.step e12, n12.1, fun hm => absurd (hb _ hm) (not_lt.mpr nvu)⟩,
    fun hm => absurd (hb _ hm) (not_lt.mpr nbu)⟩

theorem lrTrain_ksim (hk : KConsts P w k k') (numRow numCol : ℕ) {d : Data ℕ (RQ C × ℚ)}
    {d' : Data (CCt C) (RQ C × ℚ)} (hd : KData P w d d') (n : ℕ) {b v : ℕ} {b' v' : CCt C}
    (hs : KPair P {d.z} w (b, v) (b', v')) :
    KSim P w (lrTrain (memHE prm rkSet sch) k numRow numCol d n b v)
      (lrTrain (realHE prm rkSet sch) k' numRow numCol d' n b' v') (KPair P {d.z}) := by
  unfold lrTrain
  refine forUp_ksim n (fun a w' t r e hr => ?_) hs
  refine KSim.mono (lrIter_ksim prm rkSet sch (hk.step e) numRow numCol (hd.step e) a hr ?_)
    fun _ _ _ _ h => h.1
  intro x hx
  rw [Set.mem_singleton_iff.mp hx]
  exact (hd.z.step e).sep.lt

theorem mbCtStep_ksim (hk : KConsts P w k k') (numCol a : ℕ) {d : Data ℕ (RQ C × ℚ)}
    {d' : Data (CCt C) (RQ C × ℚ)} (hd : KData P w d d') {v : ℕ} {v' : CCt C} (hv : RC P w v v')
    (hne : d.z ≠ v) {acc : ℕ × ℕ} {acc' : CCt C × CCt C} (h1 : RC P w acc.1 acc'.1)
    (h2 : RC P w acc.2 acc'.2) :
    KSim P w (mbCtStep (memHE prm rkSet sch) k numCol a d v acc)
      (mbCtStep (realHE prm rkSet sch) k' numCol a d' v' acc')
      (fun w' t r => RC P w' t.1 r.1 ∧ RC P w' t.2 r.2) := by
  unfold mbCtStep
  refine KSim.bind (depth3_ksim prm rkSet sch hk numCol a hd hv hne) ?_
  rintro w1 ⟨z1, z2, m2, m1, s⟩ ⟨z1', z2', m2', m1', s'⟩ e1 ⟨hz1, hz2, hm2, hm1, hs, ne1, ne2⟩
  dsimp only at hz1 hz2 hm2 hm1 hs ne1 ne2 ⊢
  replace h1 := h1.step e1
  replace h2 := h2.step e1
  refine KSim.bind (mul_sim prm rkSet sch hm1 hm2 ne1) fun w2 g g' e2 n2 => ?_
  replace h1 := h1.step e2
  replace h2 := h2.step e2
  replace hz1 := hz1.step e2
  replace hz2 := hz2.step e2
  replace hm2 := hm2.step e2
  replace hs := hs.step e2
  refine KSim.bind (add_sim prm rkSet sch n2.1 hz1) fun w3 g g' e3 n3 => ?_
  have hg := n3.1
  replace h1 := h1.step e3
  replace h2 := h2.step e3
  replace hz2 := hz2.step e3
  replace hm2 := hm2.step e3
  replace hs := hs.step e3
  refine KSim.bind (mul_sim prm rkSet sch hs hm2 ne2) fun w6 u u' e6 n6 => ?_
  replace h1 := h1.step e6
  replace h2 := h2.step e6
  replace hz2 := hz2.step e6
  replace hg := hg.step e6
  refine KSim.bind (add_sim prm rkSet sch n6.1 hz2) fun w7 u u' e7 n7 => ?_
  have hu := n7.1
  replace h1 := h1.step e7
  replace h2 := h2.step e7
  replace hg := hg.step e7
  refine KSim.bind (add_sim prm rkSet sch h1 hg) fun w8 ga ga' e8 n8 => ?_
  replace h2 := h2.step e8
  replace hu := hu.step e8
  refine KSim.bind (add_sim prm rkSet sch h2 hu) fun w9 ua ua' e9 n9 => ?_
  exact KSim.pure ⟨n8.1.step e9, n9.1⟩

theorem mbIter_ksim (hk : KConsts P w k k') (numRow numCol numBatch numCt : ℕ)
    {d : ℕ → ℕ → Data ℕ (RQ C × ℚ)} {d' : ℕ → ℕ → Data (CCt C) (RQ C × ℚ)}
    (hd : ∀ b i, KData P w (d b i) (d' b i)) {zero : ℕ → ℕ × ℕ} {zero' : ℕ → CCt C × CCt C} (a : ℕ)
    (h1 : RC P w (zero a).1 (zero' a).1) (h2 : RC P w (zero a).2 (zero' a).2)
    {st : ℕ × ℕ} {st' : CCt C × CCt C} (hs : KPair P {x | ∃ b i, x = (d b i).z} w st st')
    {bad : Set ℕ} (hb : ∀ x ∈ bad, x < w.next) :
    KSim P w (mbIter (memHE prm rkSet sch) k numRow numCol numBatch numCt d zero a st)
      (mbIter (realHE prm rkSet sch) k' numRow numCol numBatch numCt d' zero' a st')
      (fun w' t r => KPair P bad w' t r ∧ t.1 ∉ bad) := by
  obtain ⟨beta, v⟩ := st
  obtain ⟨beta', v'⟩ := st'
  unfold mbIter
  dsimp only
  rw [hk.c6 a, hk.c7 a]
  have hv := hs.v
  have hbeta := hs.beta
  dsimp only at hv hbeta
  refine KSim.bind (forUp_ksim (R := fun w' t r => RC P w' t.1 r.1 ∧ RC P w' t.2 r.2) numCt
    (fun i w' t r e hr => ?_) ⟨h1, h2⟩) ?_
  · exact mbCtStep_ksim prm rkSet sch (hk.step e) numCol a ((hd _ i).step e) (hv.step e)
      (fun he => hs.ne ⟨_, _, he.symm⟩) hr.1 hr.2
  rintro w1 ⟨g, u⟩ ⟨g', u'⟩ e1 ⟨hg, hu⟩
  dsimp only at hg hu ⊢
  replace hv := hv.step e1
  replace hbeta := hbeta.step e1
  refine KSim.bind (SumRowVec_ksim prm rkSet sch numRow numCol 0 ⟨hg, Nat.zero_le _⟩)
    fun w4 g g' e4 n4 => ?_
  replace hv := hv.step e4
  replace hbeta := hbeta.step e4
  replace hu := hu.step e4
  refine KSim.bind (add_sim prm rkSet sch hv n4.1) fun w5 bu bu' e5 n5 => ?_
  have hbu := n5.1
  have nbu : w.next ≤ bu := e1.fr.next.trans (e4.fr.next.trans n5.2)
  have nw5 : w.next ≤ w5.next := nbu.trans hbu.sep.lt.le
  replace hv := hv.step e5
  replace hbeta := hbeta.step e5
  replace hu := hu.step e5
  refine KSim.bind (mulPtxt_sim prm rkSet sch hv _) fun w8 vu vu' e8 n8 => ?_
  have hvu := n8.1
  replace hu := hu.step e8
  replace hbeta := hbeta.step e8
  replace hbu := hbu.step e8
  refine KSim.bind (mulPtxt_sim prm rkSet sch hbeta _) fun w9 b1 b1' e9 n9 => ?_
  replace hu := hu.step e9
  replace hvu := hvu.step e9
  replace hbu := hbu.step e9
  refine KSim.bind (add_sim prm rkSet sch hvu n9.1) fun w10 vu vu' e10 n10 => ?_
  have hvu := n10.1
  replace hu := hu.step e10
  replace hbu := hbu.step e10
  refine KSim.bind (SumRowVec_ksim prm rkSet sch numRow numCol 0 ⟨hu, Nat.zero_le _⟩)
    fun w11 u u' e11 n11 => ?_
  replace hvu := hvu.step e11
  replace hbu := hbu.step e11
  refine KSim.bind (add_sim prm rkSet sch hvu n11.1) fun w12 vu vu' e12 n12 => ?_
  have nvu : w.next ≤ vu := nw5.trans (e8.fr.next.trans
    (e9.fr.next.trans (e10.fr.next.trans (e11.fr.next.trans n12.2))))
  exact KSim.pure ⟨⟨hbu.step e12, n12.1, fun hm => absurd (hb _ hm) (not_lt.mpr nvu)⟩,
    fun hm => absurd (hb _ hm) (not_lt.mpr nbu)⟩

theorem infer_ksim (hk : KConsts P w k k') (numFeature : ℕ) {test beta : ℕ} {test' beta' : CCt C}
    (ht : RC P w test test') (hb : RC P w beta beta') (hne : test ≠ beta) :
    KSim P w (infer (memHE prm rkSet sch) k numFeature test beta)
      (infer (realHE prm rkSet sch) k' numFeature test' beta') (RC P) := by
  unfold infer
  rw [hk.c8]
  have h5 := hk.c5
  have h9 := hk.c9
  refine KSim.bind (mul_sim prm rkSet sch ht hb hne) fun w1 m m' e1 n1 => ?_
  replace h5 := h5.step e1
  replace h9 := h9.step e1
  refine KSim.bind (rotAdd_ksim prm rkSet sch numFeature (fun i => (i : ℤ)) 0 ⟨n1.1, Nat.zero_le _⟩) ?_
  intro w2 ip ip' e2 n2
  have hip := n2.1
  replace h5 := h5.step e2
  replace h9 := h9.step e2
  refine KSim.bind (sq_sim prm rkSet sch hip) fun w3 t1 t1' e3 n3 => ?_
  replace h5 := h5.step e3
  replace h9 := h9.step e3
  replace hip := hip.step e3
  refine KSim.bind (add_sim prm rkSet sch n3.1 h5) fun w4 t1 t1' e4 n4 => ?_
  have ht1 := n4.1
  replace h9 := h9.step e4
  replace hip := hip.step e4
  refine KSim.bind (mulPtxt_sim prm rkSet sch hip _) fun w5 t2 t2' e5 n5 => ?_
  have q := ht1.ne n5.2
  replace h9 := h9.step e5
  replace ht1 := ht1.step e5
  refine KSim.bind (mul_sim prm rkSet sch ht1 n5.1 q) fun w6 sg sg' e6 n6 => ?_
  replace h9 := h9.step e6
  exact KSim.mono (add_sim prm rkSet sch n6.1 h9) fun _ _ _ _ n => n.1

end ops

end MK.Lr
