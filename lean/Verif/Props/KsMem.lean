import Verif.KsMemRel
import Verif.Props.KeyMemRun

/-!
# C70: key switching on memory

Multiplication, rotation and conjugation executed in place on memory give the results of the
value model, and they change only the scratch of the key switcher and the output: keys, reference
string, operands and hoisted forms stay as they are.
-/

noncomputable section

namespace MK

open PMem

variable {C : Ctx}

/-- The components of an operand are neither scratch nor output. -/
def CtSafe (ka : KSA) (out op : CtA) : Prop :=
  ∀ (i : String) (p : Ptr), op.get? i = some p → Safe ka out p.o

/-- Switching keys that are neither scratch nor output. -/
def ObjSafe {K : Type} [DecidableEq K] (ka : KSA) (out : CtA) (H : GoMap K ℕ) : Prop :=
  ∀ (i : K) (o : ℕ), H.get? i = some o → Safe ka out o

/-- An optional hoisted form that is neither scratch nor output. -/
def HtSafe (ka : KSA) (out : CtA) (h : Option HtA) : Prop := ∀ H, h = some H → ObjSafe ka out H

/-- Relinearization keys that are neither scratch nor output. -/
def RlkSafe (ka : KSA) (out : CtA) (s : GoMap String RlkA) : Prop :=
  ∀ (i : String) (k : RlkA), s.get? i = some k →
    Safe ka out k.b ∧ Safe ka out k.d ∧ Safe ka out k.v

/-- Rotation keys that are neither scratch nor output. -/
def RotSafe (ka : KSA) (out : CtA) (s : RotationKeySet RotA) : Prop :=
  ∀ (i : String) (r : ℕ) (k : RotA), s.get i r = .ok k → Safe ka out k.value

/-- Conjugation keys that are neither scratch nor output. -/
def CjSafe (ka : KSA) (out : CtA) (s : KeySet CjA) : Prop :=
  ∀ (i : String) (k : CjA), s.get i = .ok k → Safe ka out k.value

theorem Safe.free {ka : KSA} {out : CtA} {o : ℕ} (h : Safe ka out o) : ka.Free o := .of_not h.1

theorem Safe.ne {ka : KSA} {out : CtA} {o : ℕ} (h : Safe ka out o) {j : ℕ} (hj : j < 9) :
    o ≠ ka.base + j := by
  rintro rfl
  exact h.1 ⟨Nat.le_add_right _ _, by omega⟩

section steps

variable {ka : KSA} {out : CtA} {m0 m : PMem C} {ks : KS C} {ct : Ct C}

theorem runs_getDigits (hO : OutOk ka out) (h : KRel ka out m0 (ks, ct) m) (level : ℕ) {op : CtA}
    (hop : CtSafe ka out op) {hh : Option HtA} (hs : HtSafe ka out hh) (id : String) :
    Runs (fun (s : KS C × SwKey C) (t : ℕ × PMem C) => KRel ka out m0 (s.1, ct) t.2 ∧
        s.2 = t.2.obj t.1 ∧ t.1 ≠ ka.base + 6 ∧ t.1 ≠ ka.base + 7)
      (ks.getDigits level (op.read m0) (hh.map fun H => H.read m0) id)
      (ka.getDigitsM level op hh id m) := by
  cases hh with
  | none =>
    refine h.derefIn hop fun p hp hsp => ?_
    have h1 := h.dec3 hO level (hsp.ne (j := 8) (by omega))
    exact ⟨h1, h1.s3.symm, by simp [KSA.swk3], by simp [KSA.swk3]⟩
  | some H =>
    refine h.derefObj (hs H rfl) fun o ho hso => ?_
    exact ⟨h, rfl, hso.ne (by omega), hso.ne (by omega)⟩

/-- Looking up a relinearization key. -/
theorem KRel.derefRlk {σ τ : Type} {R : σ → τ → Prop} (h : KRel ka out m0 (ks, ct) m)
    {rlk : GoMap String RlkA} (hr : RlkSafe ka out rlk) {id : String}
    {f : RelinKey C → Go σ} {g : RlkA → Go τ}
    (k : ∀ r : RlkA, rlk.get? id = some r → (Safe ka out r.b ∧ Safe ka out r.d ∧ Safe ka out r.v) →
      Runs R (f (r.read m)) (g r)) :
    Runs R ((readRlks rlk m0).deref id >>= f) (rlk.deref id >>= g) :=
  Runs.deref fun r hr' => by
    have hs := hr id r hr'
    have : r.read m0 = r.read m := by
      unfold RlkA.read
      rw [h.obj hs.1, h.obj hs.2.1, h.obj hs.2.2]
    rw [this]
    exact k r hr' hs

theorem runs_xStep {η : Type _} (hO : OutOk ka out) (h : KRel ka out m0 (ks, ct) m) (level : ℕ)
    {op : CtA} (hop : CtSafe ka out op) {hh : Option HtA} (hs : HtSafe ka out hh)
    {rlk : GoMap String RlkA} (hr : RlkSafe ka out rlk) (rv : RelinKeySet (RelinKey C) η)
    (hv : rv.value = readRlks rlk m0) (id : String) :
    Runs (fun ks m => KRel ka out m0 (ks, ct) m)
      (KS.xStep level (op.read m0) (hh.map fun H => H.read m0) rv id ks)
      (ka.xStepM level op hh rlk id m) := by
  unfold KS.xStep KSA.xStepM
  rw [hv]
  refine (runs_getDigits hO h level hop hs id).bind ?_
  rintro ⟨ks1, d⟩ ⟨o, m1⟩ ⟨h1, rfl, ho6, ho7⟩
  dsimp only at h1 ho6 ⊢
  refine h1.derefRlk hr fun r _ hrs => ?_
  exact h1.acc1 hO level (hrs.2.1.ne (by omega)) ho6

theorem runs_yStep {η : Type _} (hO : OutOk ka out) (h : KRel ka out m0 (ks, ct) m) (level : ℕ)
    {op : CtA} (hop : CtSafe ka out op) {hh : Option HtA} (hs : HtSafe ka out hh)
    {rlk : GoMap String RlkA} (hr : RlkSafe ka out rlk) (rv : RelinKeySet (RelinKey C) η)
    (hv : rv.value = readRlks rlk m0) (id : String) :
    Runs (fun ks m => KRel ka out m0 (ks, ct) m)
      (KS.yStep level (op.read m0) (hh.map fun H => H.read m0) rv id ks)
      (ka.yStepM level op hh rlk id m) := by
  unfold KS.yStep KSA.yStepM
  rw [hv]
  refine (runs_getDigits hO h level hop hs id).bind ?_
  rintro ⟨ks1, d⟩ ⟨o, m1⟩ ⟨h1, rfl, ho6, ho7⟩
  dsimp only at h1 ho7 ⊢
  refine h1.derefRlk hr fun r _ hrs => ?_
  exact h1.acc2 hO level (hrs.1.ne (by omega)) ho7

theorem runs_t0Step (hO : OutOk ka out) (level : ℕ) {op : CtA} (hop : CtSafe ka out op)
    (id : String) (s : KS C × Ct C) (m : PMem C) (h : KRel ka out m0 s m) :
    Runs (KRel ka out m0) (KS.t0Step level (op.read m0) id s) (ka.t0StepM level op out id m) := by
  obtain ⟨ks, ct⟩ := s
  refine h.derefIn hop fun p hp _ => ?_
  have h1 := h.w2 hO ((m.q p).nttLvl C.nttQ level)
  refine h1.derefOut fun o ho => ?_
  refine Runs.pure (R := KRel ka out m0) ?_
  rw [h1.q1, h1.q2]
  exact h1.store hO ho _

theorem runs_t1Step (hO : OutOk ka out) (level : ℕ) {op : CtA} (hop : CtSafe ka out op)
    (ids : IDSet) (id : String) (s : KS C × Ct C) (m : PMem C) (h : KRel ka out m0 s m) :
    Runs (KRel ka out m0) (KS.t1Step level (op.read m0) ids id s)
      (ka.t1StepM level op ids out id m) := by
  obtain ⟨ks, ct⟩ := s
  refine h.derefIn hop fun p hp _ => ?_
  have h1 := h.w2 hO ((m.q p).nttLvl C.nttQ level)
  refine h1.derefOut fun o ho => ?_
  refine Runs.pure (R := KRel ka out m0) ?_
  rw [h1.q0, h1.q2]
  split
  · exact h1.store hO ho _
  · exact h1.store hO ho _

theorem runs_invStep (hO : OutOk ka out) (level : ℕ) (id : String) (ct : Ct C) (m : PMem C)
    (h : KRel ka out m0 (ks, ct) m) :
    Runs (fun ct m => KRel ka out m0 (ks, ct) m) (invStep level id ct)
      (invStepM level out id m) :=
  h.derefOut fun _ ho => h.store hO ho fun x => x.invNttLvl C.nttQ level x

theorem runs_extComp (hO : OutOk ka out) (h : KRel ka out m0 (ks, ct) m) (level : ℕ) {op : CtA}
    (hop : CtSafe ka out op) {hh : Option HtA} (hs : HtSafe ka out hh) (id : String) {key : ℕ}
    (hk : ka.Free key) :
    Runs (fun ks m => KRel ka out m0 (ks, ct) m)
      (ks.extComp level (op.read m0) (hh.map fun H => H.read m0) id (m.obj key))
      (ka.extCompM level op hh id key m) := by
  cases hh with
  | none => exact h.derefIn hop fun p hp hsp => h.ext0 hO level hsp.free hk
  | some H => exact h.derefObj (hs H rfl) fun o ho hso => h.exh0 hO level hso.free hk

theorem runs_e1Step (hO : OutOk ka out) (level : ℕ) {op : CtA} (hop : CtSafe ka out op)
    {hh : Option HtA} (hs : HtSafe ka out hh) (id : String) (s : KS C × Ct C) (m : PMem C)
    (h : KRel ka out m0 s m) :
    Runs (KRel ka out m0) (KS.e1Step level (op.read m0) (hh.map fun H => H.read m0) id s)
      (ka.e1StepM level op hh out id m) := by
  obtain ⟨ks, ct⟩ := s
  unfold KS.e1Step KSA.e1StepM
  dsimp only
  rw [← h.s1]
  refine (runs_extComp hO h level hop hs id (KRel.free_swk1 ka)).bind fun ks1 m1 h1 => ?_
  refine h1.derefOut fun o ho => ?_
  refine Runs.pure (R := KRel ka out m0) ?_
  rw [h1.q0]
  exact h1.store hO ho fun x => RPoly.addLvl level x ks1.pq0 x

theorem runs_lastPlain (hO : OutOk ka out) {crs : GoMap ℤ ℕ} (hcrs : ObjSafe ka out crs)
    (level : ℕ) {v : ℕ} (hv : Safe ka out v) (id : String) (s : KS C × Ct C) (m : PMem C)
    (h : KRel ka out m0 s m) :
    Runs (KRel ka out m0) (KS.lastPlain (readCRS crs m0) level (m.obj v) id s)
      (ka.lastPlainM crs level v out id m) := by
  obtain ⟨ks, ct⟩ := s
  unfold KS.lastPlain KSA.lastPlainM
  dsimp only
  have h1 := h.ext1 hO level (KRel.free_pq0 ka) hv.free
  rw [h.q0] at h1
  refine h1.derefOut fun o ho => ?_
  have h2 := h1.store hO ho fun x => RPoly.addLvl level x ((ka.ExternalProductM level ka.pq0 v
    ka.pq1 m).q ka.pq1) x
  rw [h1.q1] at h2 ⊢
  refine h2.derefObj hcrs fun u hu hus => ?_
  have h3 := h2.ext2 hO level (KRel.free_pq0 ka) hus.free
  rw [h2.q0] at h3
  refine h3.derefOut fun o' ho' => ?_
  refine Runs.pure (R := KRel ka out m0) ?_
  rw [h3.q2]
  exact h3.store hO ho' fun x => RPoly.addLvl level x _ x

theorem runs_lastHoisted (hO : OutOk ka out) {crs : GoMap ℤ ℕ} (hcrs : ObjSafe ka out crs)
    (level : ℕ) {v : ℕ} (hv : Safe ka out v) (id : String) (s : KS C × Ct C) (m : PMem C)
    (h : KRel ka out m0 s m) :
    Runs (KRel ka out m0) (KS.lastHoisted (readCRS crs m0) level (m.obj v) id s)
      (ka.lastHoistedM crs level v out id m) := by
  obtain ⟨ks, ct⟩ := s
  unfold KS.lastHoisted KSA.lastHoistedM
  dsimp only
  have h0 := h.dec3 hO level (a := ka.pq0) (by simp [KSA.pq0])
  rw [h.q0] at h0
  have h1 := h0.exh1 hO level (KRel.free_swk3 ka) hv.free
  rw [h0.s3, h0.obj hv, ← h.obj hv] at h1
  refine h1.derefOut fun o ho => ?_
  have h2 := h1.store hO ho fun x => RPoly.addLvl level x ((ka.ExternalProductHoistedM level
    ka.swk3 v ka.pq1 (ka.DecomposeM level ka.pq0 ka.swk3 m)).q ka.pq1) x
  rw [h1.q1] at h2 ⊢
  refine h2.derefObj hcrs fun u hu hus => ?_
  have h3 := h2.exh2 hO level (KRel.free_swk3 ka) hus.free
  rw [h2.s3] at h3
  refine h3.derefOut fun o' ho' => ?_
  refine Runs.pure (R := KRel ka out m0) ?_
  rw [h3.q2]
  exact h3.store hO ho' fun x => RPoly.addLvl level x _ x

theorem runs_e0Step {η : Type _} (hO : OutOk ka out)
    {last : SwKey C → String → KS C × Ct C → Go (KS C × Ct C)}
    {lastM : ℕ → String → PMem C → Go (PMem C)}
    (hlast : ∀ v, Safe ka out v → ∀ id s m, KRel ka out m0 s m →
      Runs (KRel ka out m0) (last (m.obj v) id s) (lastM v id m))
    (level : ℕ) {op : CtA} (hop : CtSafe ka out op) {hh : Option HtA} (hs : HtSafe ka out hh)
    {rlk : GoMap String RlkA} (hr : RlkSafe ka out rlk) (rv : RelinKeySet (RelinKey C) η)
    (hv : rv.value = readRlks rlk m0) (id : String) (s : KS C × Ct C) (m : PMem C)
    (h : KRel ka out m0 s m) :
    Runs (KRel ka out m0) (KS.e0Step last level (op.read m0) (hh.map fun H => H.read m0) rv id s)
      (ka.e0StepM lastM level op hh rlk id m) := by
  obtain ⟨ks, ct⟩ := s
  unfold KS.e0Step KSA.e0StepM
  dsimp only
  rw [hv]
  refine h.derefRlk hr fun r _ hrs => ?_
  rw [← h.s2]
  refine (runs_extComp hO h level hop hs id (KRel.free_swk2 ka)).bind fun ks1 m1 h1 => ?_
  rw [show (r.read m).v = m1.obj r.v from by
    rw [h1.obj hrs.2.2, ← h.obj hrs.2.2]; rfl]
  exact hlast r.v hrs.2.2 id _ m1 h1

/-- `Level()` of the output. -/
theorem runs_levelOut {σ τ : Type} {R : σ → τ → Prop} (h : KRel ka out m0 (ks, ct) m)
    {f : ℕ → Go σ} {g : ℕ → Go τ} (k : ∀ l, Runs R (f l) (g l)) :
    Runs R (ct.Level >>= f) (out.levelM m >>= g) := by
  unfold Ct.Level CtA.levelM
  rw [bind_assoc, bind_assoc]
  exact h.derefOut fun p _ => k _

/-- `Level()` of an operand. -/
theorem runs_levelIn {σ τ : Type} {R : σ → τ → Prop} (h : KRel ka out m0 (ks, ct) m) {op : CtA}
    (hop : CtSafe ka out op) {f : ℕ → Go σ} {g : ℕ → Go τ} (k : ∀ l, Runs R (f l) (g l)) :
    Runs R ((op.read m0).Level >>= f) (op.levelM m >>= g) := by
  unfold Ct.Level CtA.levelM
  rw [bind_assoc, bind_assoc]
  exact h.derefIn hop fun p _ _ => k _

theorem runs_mulCore {η : Type _} (hO : OutOk ka out)
    {last : ℕ → SwKey C → String → KS C × Ct C → Go (KS C × Ct C)}
    {lastM : ℕ → ℕ → CtA → String → PMem C → Go (PMem C)}
    (hlast : ∀ level v, Safe ka out v → ∀ id s m, KRel ka out m0 s m →
      Runs (KRel ka out m0) (last level (m.obj v) id s) (lastM level v out id m))
    {op0 op1 : CtA} (hop0 : CtSafe ka out op0) (hop1 : CtSafe ka out op1) {h0 h1 : Option HtA}
    (hs0 : HtSafe ka out h0) (hs1 : HtSafe ka out h1)
    {rlk : GoMap String RlkA} (hr : RlkSafe ka out rlk) (rv : RelinKeySet (RelinKey C) η)
    (hv : rv.value = readRlks rlk m0) (o : MulOrd) (h : KRel ka out m0 (ks, ct) m) :
    Runs (KRel ka out m0)
      (ks.mulCore last (op0.read m0) (op1.read m0) (h0.map fun H => H.read m0)
        (h1.map fun H => H.read m0) rv ct o)
      (ka.mulCoreM lastM op0 op1 h0 h1 rlk out o m) := by
  unfold KS.mulCore KSA.mulCoreM
  refine runs_levelOut h fun level => ?_
  refine runs_levelIn h hop0 fun l0 => ?_
  refine Runs.ite (fun _ => rfl) fun _ => ?_
  unfold Ct.IDSet
  refine Runs.same _ fun ids0 => ?_
  refine Runs.same _ fun _ => ?_
  dsimp only
  rw [zeroAllM_eq, zeroAllM_eq]
  have a1 := h.o1 hO (zeroAll level (m.obj ka.swk1))
  have a2 := a1.o2 hO (zeroAll level ((m.setObj ka.swk1 (zeroAll level (m.obj ka.swk1))).obj
    ka.swk2))
  rw [h.s1] at a1 a2 ⊢
  rw [a1.s2] at a2 ⊢
  refine (Runs.forEach (R := fun ks m => KRel ka out m0 (ks, ct) m) o.x
    (fun id ks m h => runs_xStep hO h level hop0 hs0 hr rv hv id) a2).bind fun ks1 m1 b1 => ?_
  rw [mformAllM_eq, b1.s1]
  have b2 := b1.o1 hO (mformAll level ks1.swk1)
  refine (Runs.forEach (R := fun ks m => KRel ka out m0 (ks, ct) m) o.y
    (fun id ks m h => runs_yStep hO h level hop1 hs1 hr rv hv id) b2).bind fun ks2 m2 c1 => ?_
  rw [mformAllM_eq, c1.s2]
  have c2 := c1.o2 hO (mformAll level ks2.swk2)
  refine c2.derefIn hop0 fun p0 _ hp0 => ?_
  refine c2.derefIn hop1 fun p1 _ hp1 => ?_
  have d1 := c2.w0 hO (((m2.setObj ka.swk2 (mformAll level ks2.swk2)).q p0).nttLvl C.nttQ level)
  have e1 := d1.q hp1
  rw [← c2.q hp1] at e1
  have d2 := d1.w1 hO (((m2.setObj ka.swk2 (mformAll level ks2.swk2)).q p1).nttLvl C.nttQ level)
  rw [e1]
  have d3 := d2.w0 hO fun x => x.mformLvl level x
  refine d3.derefOut fun o0 ho0 => ?_
  rw [d3.q0, d3.q1]
  refine Runs.bind (R := KRel ka out m0) (Runs.forEach o.t0 (runs_t0Step hO level hop0) ?_)
    fun s3 m3 g1 => ?_
  · exact (d3.store hO ho0 (RPoly.mulMontLvl level _ _)).w1 hO fun x => x.mformLvl level x
  obtain ⟨ks3, ct3⟩ := s3
  refine (Runs.forEach o.t1 (runs_t1Step hO level hop1 ids0) g1).bind fun s4 m4 g2 => ?_
  obtain ⟨ks4, ct4⟩ := s4
  refine (Runs.forEach o.inv (runs_invStep hO level) g2).bind fun ct5 m5 g3 => ?_
  refine (Runs.forEach o.e1 (runs_e1Step hO level hop1 hs1) g3).bind fun s6 m6 g4 => ?_
  obtain ⟨ks6, ct6⟩ := s6
  exact Runs.forEach o.e0 (runs_e0Step hO (hlast level) level hop0 hs0 hr rv hv) g4

/-! ## Rotation -/

/-- What the external product of a rotation has to satisfy. -/
def ExtpOk (ka : KSA) (out : CtA) (m0 : PMem C)
    (extp : KS C → String → SwKey C → RQ C → Go (KS C × RQ C))
    (extpM : String → ℕ → Ptr → PMem C → Go (PMem C)) : Prop :=
  ∀ (ks : KS C) (ct : Ct C) (m : PMem C), KRel ka out m0 (ks, ct) m → ∀ (id : String) (key : ℕ),
    Safe ka out key →
    Runs (fun s m' => KRel ka out m0 ({ s.1 with pq0 := s.2 }, ct) m')
      (extp ks id (m.obj key) ks.pq0) (extpM id key ka.pq0 m) ∧
    ∀ (i : String) (p : Ptr), out.get? i = some p →
      Runs (fun s m' => KRel ka out m0 (s.1, ⟨ct.value.set i s.2⟩) m')
        (extp ks id (m.obj key) (m.q p)) (extpM id key p m)

theorem extpOk_plain (hO : OutOk ka out) (level : ℕ) {op : CtA} (hop : CtSafe ka out op) :
    ExtpOk ka out m0 (fun ks id key c => do
        let a ← (op.read m0).value.deref id
        return ks.ExternalProduct level a key c)
      (fun id key c m => do
        let a ← op.deref id
        return ka.ExternalProductM level a key c m) := by
  intro ks ct m h id key hk
  refine ⟨h.derefIn hop fun p _ hp => ?_, fun i o ho => h.derefIn hop fun p _ hp => ?_⟩
  · exact h.ext0 hO level hp.free hk.free
  · exact h.extO hO level ho hp.free hk.free

theorem extpOk_hoisted (hO : OutOk ka out) (level : ℕ) {H : HtA} (hH : ObjSafe ka out H) :
    ExtpOk ka out m0 (fun ks id key c => do
        let a ← (H.read m0).deref id
        return ks.ExternalProductHoisted level a key c)
      (fun id key c m => do
        let a ← H.deref id
        return ka.ExternalProductHoistedM level a key c m) := by
  intro ks ct m h id key hk
  refine ⟨h.derefObj hH fun p _ hp => ?_, fun i o ho => h.derefObj hH fun p _ hp => ?_⟩
  · exact h.exh0 hO level hp.free hk.free
  · exact h.exhO hO level ho hp.free hk.free

/-- Looking up a rotation key. -/
theorem KRel.getRot {σ τ : Type} {R : σ → τ → Prop} (h : KRel ka out m0 (ks, ct) m)
    {rks : RotationKeySet RotA} (hr : RotSafe ka out rks) {id : String} {r : ℕ}
    {f : RotKey C → Go σ} {g : RotA → Go τ}
    (k : ∀ r : RotA, Safe ka out r.value → Runs R (f (r.read m)) (g r)) :
    Runs R ((readRots rks m0).get id r >>= f) (rks.get id r >>= g) := by
  have hr' := hr id r
  unfold RotationKeySet.get at hr' ⊢
  unfold readRots
  dsimp only
  rw [GoMap.get?_mapVals]
  cases h1 : rks.value.get? id with
  | none => exact rfl
  | some inner =>
    simp only [Option.map_some]
    rw [GoMap.get?_mapVals]
    rw [h1] at hr'
    dsimp only at hr'
    cases h2 : inner.get? r with
    | none => exact rfl
    | some rk =>
      rw [h2] at hr'
      have hs := hr' rk rfl
      have : rk.read m0 = rk.read m := by unfold RotA.read; rw [h.obj hs]
      simp only [Option.map_some]
      rw [this]
      exact k rk hs

theorem runs_rotStep (hO : OutOk ka out)
    {extp : KS C → String → SwKey C → RQ C → Go (KS C × RQ C)}
    {extpM : String → ℕ → Ptr → PMem C → Go (PMem C)} (hx : ExtpOk ka out m0 extp extpM)
    {crs : GoMap ℤ ℕ} (hcrs : ObjSafe ka out crs) (level : ℕ) (r : ℤ)
    {rks : RotationKeySet RotA} (hr : RotSafe ka out rks) (id : String) (s : KS C × Ct C)
    (m : PMem C) (h : KRel ka out m0 s m) :
    Runs (KRel ka out m0) (KS.rotStep extp (readCRS crs m0) level r (readRots rks m0) id s)
      (ka.rotStepM extpM crs level r rks out id m) := by
  obtain ⟨ks, ct⟩ := s
  unfold KS.rotStep KSA.rotStepM
  dsimp only
  refine h.getRot hr fun rk hrk => ?_
  refine ((hx ks ct m h id rk.value hrk).1).bind fun s1 m1 h1 => ?_
  obtain ⟨ks1, c1⟩ := s1
  refine h1.derefOut fun o ho => ?_
  rw [h1.q0]
  have h2 := h1.store hO ho fun x => RPoly.addLvl level x c1 x
  refine h2.derefObj hcrs fun u _ hu => ?_
  refine h2.derefOut fun p hp => ?_
  exact ((hx _ _ _ h2 id u hu).2 id p hp).map fun s3 m3 h3 => h3

theorem runs_permStep (hO : OutOk ka out) (level g : ℕ) (id : String) (s : KS C × Ct C)
    (m : PMem C) (h : KRel ka out m0 s m) :
    Runs (KRel ka out m0) (KS.permStep level g id s) (ka.permStepM level g out id m) := by
  obtain ⟨ks, ct⟩ := s
  unfold KS.permStep KSA.permStepM
  dsimp only
  refine h.derefOut fun p hp => ?_
  have h1 := h.w0 hO (permuteLvl level g (m.q p))
  refine Runs.pure (R := KRel ka out m0) ?_
  rw [h1.q0]
  have h2 := h1.store hO hp (permuteLvl level g (m.q p) ks.pq0).copy
  rwa [m.q_wrQ_of_ne _ (by rintro rfl; exact hO.disj hp (KRel.has_pq0 ka))] at h2

theorem runs_rotCore (hO : OutOk ka out)
    {extp : ℕ → KS C → String → SwKey C → RQ C → Go (KS C × RQ C)}
    {extpM : ℕ → String → ℕ → Ptr → PMem C → Go (PMem C)}
    (hx : ∀ level, ExtpOk ka out m0 (extp level) (extpM level))
    {crs : GoMap ℤ ℕ} (hcrs : ObjSafe ka out crs) {ctIn : CtA} (hin : CtSafe ka out ctIn) (r : ℤ)
    {rks : RotationKeySet RotA} (hr : RotSafe ka out rks) (o : RotOrd)
    (h : KRel ka out m0 (ks, ct) m) :
    Runs (KRel ka out m0)
      (ks.rotCore extp (readCRS crs m0) (ctIn.read m0) r (readRots rks m0) ct o)
      (ka.rotCoreM extpM crs ctIn r rks out o m) := by
  unfold KS.rotCore KSA.rotCoreM
  refine runs_levelOut h fun level => ?_
  unfold Ct.IDSet
  refine Runs.same _ fun _ => ?_
  refine runs_levelIn h hin fun l0 => ?_
  refine Runs.ite (fun _ => rfl) fun _ => ?_
  dsimp only
  refine h.derefIn hin fun p _ hp => ?_
  refine h.derefOut fun o0 ho0 => ?_
  have h1 := h.store hO ho0 (m.q p).copy
  refine (Runs.forEach o.k (runs_rotStep hO (hx level) hcrs level _ hr) h1).bind
    fun s2 m2 h2 => ?_
  obtain ⟨ks2, ct2⟩ := s2
  exact Runs.forEach o.p (runs_permStep hO level _) h2

/-! ## Conjugation -/

theorem runs_conjPermStep (hO : OutOk ka out) {ctIn : CtA} (hin : CtSafe ka out ctIn)
    (id : String) (ct : Ct C) (m : PMem C) (h : KRel ka out m0 (ks, ct) m) :
    Runs (fun ct m => KRel ka out m0 (ks, ct) m) (conjPermStep (ctIn.read m0) id ct)
      (conjPermStepM ctIn out id m) := by
  unfold conjPermStep conjPermStepM
  refine h.derefIn hin fun p _ hp => ?_
  refine h.derefOut fun o ho => ?_
  refine Runs.same _ fun v => ?_
  exact h.store hO ho fun _ => v

/-- Looking up a conjugation key. -/
theorem KRel.getCj {σ τ : Type} {R : σ → τ → Prop} (h : KRel ka out m0 (ks, ct) m)
    {cks : KeySet CjA} (hr : CjSafe ka out cks) {id : String}
    {f : ConjKey C → Go σ} {g : CjA → Go τ}
    (k : ∀ r : CjA, Safe ka out r.value → Runs R (f (r.read m)) (g r)) :
    Runs R ((readCjs cks m0).get id >>= f) (cks.get id >>= g) := by
  have hr' := hr id
  unfold KeySet.get at hr' ⊢
  unfold readCjs
  dsimp only
  rw [GoMap.get?_mapVals]
  cases h1 : cks.value.get? id with
  | none => exact rfl
  | some ck =>
    rw [h1] at hr'
    have hs := hr' ck rfl
    have : ck.read m0 = ck.read m := by unfold CjA.read; rw [h.obj hs]
    simp only [Option.map_some]
    rw [this]
    exact k ck hs

theorem runs_conjKeyStep (hO : OutOk ka out) (level : ℕ) {cks : KeySet CjA}
    (hc : CjSafe ka out cks) (id : String) (s : KS C × Ct C) (m : PMem C)
    (h : KRel ka out m0 s m) :
    Runs (KRel ka out m0) (KS.conjKeyStep level (readCjs cks m0) id s)
      (ka.conjKeyStepM level cks out id m) := by
  obtain ⟨ks, ct⟩ := s
  unfold KS.conjKeyStep KSA.conjKeyStepM
  dsimp only
  refine h.getCj hc fun ck hck => ?_
  refine h.derefOut fun p hp => ?_
  have h1 := h.ext0 hO level (.of_not (hO.disj hp)) hck.free
  refine h1.derefOut fun o ho => ?_
  refine Runs.pure (R := KRel ka out m0) ?_
  rw [h1.q0]
  exact h1.store hO ho fun x => RPoly.addLvl level x _ x

theorem runs_conjCrsStep (hO : OutOk ka out) {crs : GoMap ℤ ℕ} (hcrs : ObjSafe ka out crs)
    (level : ℕ) (id : String) (s : KS C × Ct C) (m : PMem C) (h : KRel ka out m0 s m) :
    Runs (KRel ka out m0) (KS.conjCrsStep (readCRS crs m0) level id s)
      (ka.conjCrsStepM crs level out id m) := by
  obtain ⟨ks, ct⟩ := s
  unfold KS.conjCrsStep KSA.conjCrsStepM
  dsimp only
  refine h.derefOut fun p hp => ?_
  refine h.derefObj hcrs fun u _ hu => ?_
  have h1 := h.ext0 hO level (.of_not (hO.disj hp)) hu.free
  refine Runs.pure (R := KRel ka out m0) ?_
  rw [h1.q0]
  have h2 := h1.store hO hp (ks.ExternalProduct level (m.q p) (m.obj u) ks.pq0).2.copy
  have e : (ka.ExternalProductM level p u ka.pq0 m).q p = m.q p := by
    have e1 := congrArg (fun c : Ct C => c.value.get? id) (h1.ct.trans h.ct.symm)
    simp only [CtA.read, GoMap.get?_mapVals, hp, Option.map_some, Option.some.injEq] at e1
    exact e1
  rwa [e] at h2

end steps

/-! ## Theorems -/

/-- What the caller gets: the contents of the output and of the scratch, and an unchanged rest of
the memory. -/
def Result (ka : KSA) (out : CtA) (m : PMem C) (v : Go (KS C × Ct C)) (x : Go (PMem C)) : Prop :=
  match v, x with
  | .ok (ks, ct), .ok m' => ka.read m' = ks ∧ out.read m' = ct ∧ m'.next = m.next ∧
      ∀ p : Ptr, Safe ka out p.o → m'.val p = m.val p
  | .error e, .error e' => e = e'
  | _, _ => False

theorem Result.of_runs {ka : KSA} {out : CtA} {m : PMem C} {v : Go (KS C × Ct C)} {x : Go (PMem C)}
    (h : Runs (KRel ka out m) v x) : Result ka out m v x := by
  unfold Runs at h
  unfold Result
  cases v with
  | error e => cases x with
    | error e' => exact h
    | ok m' => exact h
  | ok s => cases x with
    | error e' => exact h
    | ok m' => exact ⟨h.ks, h.ct, h.next, h.frame⟩

/-- C70: `MulAndRelin` on memory.  The two operands may be the same ciphertext. -/
theorem C70_mul {η : Type _} {ka : KSA} {out op0 op1 : CtA} {crs : GoMap ℤ ℕ}
    {rlk : GoMap String RlkA} (m : PMem C) (rv : RelinKeySet (RelinKey C) η) (o : MulOrd)
    (hO : OutOk ka out) (h0 : CtSafe ka out op0) (h1 : CtSafe ka out op1)
    (hcrs : ObjSafe ka out crs) (hr : RlkSafe ka out rlk) (hv : rv.value = readRlks rlk m) :
    Result ka out m
      ((ka.read m).MulAndRelin (readCRS crs m) (op0.read m) (op1.read m) rv (out.read m) o)
      (ka.MulAndRelinM crs op0 op1 rlk out o m) :=
  .of_runs (runs_mulCore (h0 := none) (h1 := none) hO
    (fun level _ hv => runs_lastPlain hO hcrs level hv) h0 h1
    (fun _ h => by cases h) (fun _ h => by cases h) hr rv hv o (KRel.refl ka out m))

/-- C70: `MulAndRelinHoisted` on memory.  The operands and the hoisted forms may coincide. -/
theorem C70_mulHoisted {η : Type _} {ka : KSA} {out op0 op1 : CtA} {d0 d1 : Option HtA}
    {crs : GoMap ℤ ℕ} {rlk : GoMap String RlkA} (m : PMem C) (rv : RelinKeySet (RelinKey C) η)
    (o : MulOrd) (hO : OutOk ka out) (h0 : CtSafe ka out op0) (h1 : CtSafe ka out op1)
    (hd0 : HtSafe ka out d0) (hd1 : HtSafe ka out d1)
    (hcrs : ObjSafe ka out crs) (hr : RlkSafe ka out rlk) (hv : rv.value = readRlks rlk m) :
    Result ka out m
      ((ka.read m).MulAndRelinHoisted (readCRS crs m) (op0.read m) (op1.read m)
        (d0.map fun H => H.read m) (d1.map fun H => H.read m) rv (out.read m) o)
      (ka.MulAndRelinHoistedM crs op0 op1 d0 d1 rlk out o m) :=
  .of_runs (runs_mulCore hO (fun level _ hv => runs_lastHoisted hO hcrs level hv) h0 h1
    hd0 hd1 hr rv hv o (KRel.refl ka out m))

/-- C70: `Rotate` on memory. -/
theorem C70_rotate {ka : KSA} {out ctIn : CtA} {crs : GoMap ℤ ℕ} {rks : RotationKeySet RotA}
    (m : PMem C) (r : ℤ) (o : RotOrd) (hO : OutOk ka out) (hin : CtSafe ka out ctIn)
    (hcrs : ObjSafe ka out crs) (hr : RotSafe ka out rks) :
    Result ka out m
      ((ka.read m).Rotate (readCRS crs m) (ctIn.read m) r (readRots rks m) (out.read m) o)
      (ka.RotateM crs ctIn r rks out o m) :=
  .of_runs (runs_rotCore hO (fun level => extpOk_plain hO level hin) hcrs hin r hr o
    (KRel.refl ka out m))

/-- C70: `RotateHoisted` on memory. -/
theorem C70_rotateHoisted {ka : KSA} {out ctIn : CtA} {H : HtA} {crs : GoMap ℤ ℕ}
    {rks : RotationKeySet RotA} (m : PMem C) (r : ℤ) (o : RotOrd) (hO : OutOk ka out)
    (hin : CtSafe ka out ctIn) (hH : ObjSafe ka out H) (hcrs : ObjSafe ka out crs)
    (hr : RotSafe ka out rks) :
    Result ka out m
      ((ka.read m).RotateHoisted (readCRS crs m) (ctIn.read m) r (H.read m) (readRots rks m)
        (out.read m) o)
      (ka.RotateHoistedM crs ctIn r H rks out o m) :=
  .of_runs (runs_rotCore hO (fun level => extpOk_hoisted hO level hH) hcrs hin r hr o
    (KRel.refl ka out m))

/-- C70: `Conjugate` on memory. -/
theorem C70_conjugate {ka : KSA} {out ctIn : CtA} {crs : GoMap ℤ ℕ} {cks : KeySet CjA}
    (m : PMem C) (o : RotOrd) (hO : OutOk ka out) (hin : CtSafe ka out ctIn)
    (hcrs : ObjSafe ka out crs) (hc : CjSafe ka out cks) :
    Result ka out m
      ((ka.read m).Conjugate (readCRS crs m) (ctIn.read m) (readCjs cks m) (out.read m) o)
      (ka.ConjugateM crs ctIn cks out o m) := by
  refine .of_runs ?_
  have h := KRel.refl ka out m
  unfold KS.Conjugate KSA.ConjugateM
  refine runs_levelOut h fun level => ?_
  unfold Ct.IDSet
  refine Runs.same _ fun _ => ?_
  refine runs_levelIn h hin fun l0 => ?_
  refine Runs.ite (fun _ => rfl) fun _ => ?_
  refine (Runs.forEach o.p (runs_conjPermStep hO hin) h).bind fun ct1 m1 h1 => ?_
  refine (Runs.forEach o.k (runs_conjKeyStep hO level hc) h1).bind fun s2 m2 h2 => ?_
  obtain ⟨ks2, ct2⟩ := s2
  exact Runs.forEach o.k2 (runs_conjCrsStep hO hcrs level) h2

end MK
