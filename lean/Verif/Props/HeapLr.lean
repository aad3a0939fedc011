import Verif.HeapLrSim
import Verif.Props.Heap

/-!
# C58: the main functions on pointers print what they print on values
-/

noncomputable section

namespace MK.Lr

open Word (idx upd)

variable {C : Ctx} {P : Pools} {α β γ δ : Type}

/-! ## Steps of a main function -/

/-- A step that leaves the evaluator alone. -/
structure Step (P : Pools) (w w' : Heap C) : Prop where
  e : EvFr P ∅ ∅ w w'
  ev : ∀ ev : HEv C, ev.toPools = P → w'.viewEv ev = w.viewEv ev

theorem Step.ofFr {w w' : Heap C} (ok : PoolOk w P) (f : Fr ∅ ∅ ∅ w w') : Step P w w' :=
  ⟨EvFr.ofFr ok f, fun ev hp => f.viewEv (by rw [hp]; exact ok)⟩

theorem Step.trans {w w' w'' : Heap C} (a : Step P w w') (b : Step P w' w'') : Step P w w'' :=
  ⟨EvFr.empty_trans a.e b.e, fun ev h => (b.ev ev h).trans (a.ev ev h)⟩

theorem Step.refl {w : Heap C} (ok : PoolOk w P) : Step P w w := ⟨EvFr.refl ok _ _, fun _ _ => rfl⟩

/-- The machines agree. -/
structure MR (P : Pools) (w : Heap C) (m : PMach C) (m' : Mach C) : Prop where
  ok : PoolOk w P
  pools : m.ev.toPools = P
  abs : m' = m.abs w

theorem MR.step {w w' : Heap C} {m : PMach C} {m' : Mach C} (h : MR P w m m') (s : Step P w w') :
    MR P w' m m' :=
  ⟨s.e.ok, h.pools, by rw [h.abs]; unfold PMach.abs; rw [s.ev _ h.pools]⟩

theorem Sim.bind_ok {h : Heap C} {m : HM C α} {f : Go β} {Q : Heap C → α → β → Prop} {k : α → HM C γ}
    {k' : β → Go δ} {R : Heap C → γ → δ → Prop} (hs : Sim h m f Q)
    (hk : ∀ h' a b, f = .ok b → Q h' a b → Sim h' (k a) (k' b) R) :
    Sim h (m >>= k) (f >>= k') R := by
  refine Sim.bind (Q := fun h' a b => f = .ok b ∧ Q h' a b) ?_ fun h' a b q => hk h' a b q.1 q.2
  unfold Sim at hs ⊢
  cases hm : m h <;> cases f <;> simp_all

theorem newEvaluator_bind {h : Heap C} {k : HEv C → HM C α} {f : Go β} {R : Heap C → α → β → Prop}
    (hk : ∀ h' ev, PoolOk h' ev.toPools → h'.viewEv ev = Ev.new → Sim h' (k ev) f R) :
    Sim h (Mem.newEvaluator >>= k) f R :=
  Sim.bind_ok (f := .ok (Ev.new : Ev C)) (k' := fun _ => f) (newEvaluator_sim h)
    fun h' ev e he q => hk h' ev q.1 (by rw [q.2]; cases he; rfl)

theorem encrypt_bind (E : Encoder C (List ℂ)) (prm : CPar C) (enc : CEnc C) (rnd : EncRand C)
    (msg : List ℂ) (pk : PublicKey C) {w : Heap C} (ok : PoolOk w P) {k : CEnc C × ℕ → HM C γ}
    {k' : CEnc C × CCt C → Go δ} {R : Heap C → γ → δ → Prop}
    (hk : ∀ w' enc x c, pk.id ≠ "0" → Step P w w' → New P w.next w' x c →
      Sim w' (k (enc, x)) (k' (enc, c)) R) :
    Sim w (Mem.EncryptMsgNew E prm enc rnd msg pk >>= k) (enc.EncryptMsgNew E prm rnd msg pk >>= k') R := by
  refine Sim.bind_ok (EncryptMsgNew_sim E prm enc rnd msg pk) ?_
  rintro w' ⟨enc, x⟩ ⟨enc', c⟩ he ⟨rfl, n⟩
  refine hk w' enc x c ?_ (Step.ofFr ok n.fr) ⟨⟨n.sep ok, n.view⟩, n.fresh⟩
  intro h0
  unfold CEnc.EncryptMsgNew IDSet.Add at he
  rw [if_pos h0] at he
  cases he

theorem encryptExpand_bind (E : Encoder C (List ℂ)) (prm : CPar C) (enc : CEnc C) (rnd : EncRand C)
    (msg : List ℂ) {pk : PublicKey C} (hid : pk.id ≠ "0") (o : List String) {w : Heap C}
    (ok : PoolOk w P) {k : CEnc C × ℕ → HM C γ}
    {k' : CEnc C × CCt C → Go δ} {R : Heap C → γ → δ → Prop}
    (hk : ∀ w' enc x c, Step P w w' → New P w.next w' x c → Sim w' (k (enc, x)) (k' (enc, c)) R) :
    Sim w (Mem.EncryptMsgNewExpand E prm enc rnd msg pk o >>= k)
      (enc.EncryptMsgNewExpand E prm rnd msg pk o >>= k') R := by
  refine Sim.bind (EncryptMsgNewExpand_sim E prm enc rnd msg hid o) ?_
  rintro w' ⟨enc, x⟩ ⟨enc', c⟩ ⟨rfl, n⟩
  exact hk w' enc x c (Step.ofFr ok n.fr) ⟨⟨n.sep ok, n.view⟩, n.fresh⟩

theorem decrypt_bind (E : Encoder C (List ℂ)) (dec : CDec C) {w : Heap C} (ok : PoolOk w P) {x : ℕ}
    {c : CCt C} (hx : RC P w x c) (skSet : KeySet (SecretKey C)) (π : Sched)
    {k : CDec C × List ℂ → HM C γ} {k' : CDec C × List ℂ → Go δ} {R : Heap C → γ → δ → Prop}
    (hk : ∀ w' r, Step P w w' → Sim w' (k r) (k' r) R) :
    Sim w (Mem.Decrypt E dec x skSet π >>= k) (dec.Decrypt E c skSet π >>= k') R := by
  have h := Decrypt_sim E dec hx.sep.valid hx.sep.lt skSet π
  rw [hx.view] at h
  refine Sim.bind h ?_
  rintro w' r r' ⟨rfl, f⟩
  exact hk w' r (Step.ofFr ok f)

theorem run_bind {w : Heap C} {m : PMach C} {m' : Mach C} (hm : MR P w m m')
    {p : StateT (PMach C) (HM C) α} {p' : StateT (Mach C) Go β} {Q : Heap C → α → β → Prop}
    (h : KSim P w p p' Q) {k : α × PMach C → HM C γ} {k' : β × Mach C → Go δ}
    {R : Heap C → γ → δ → Prop}
    (hk : ∀ w' a b m m', EvFr P ∅ ∅ w w' → MR P w' m m' → Q w' a b → Sim w' (k (a, m)) (k' (b, m')) R) :
    Sim w (p m >>= k) (p' m' >>= k') R := by
  have := h m hm.pools hm.ok
  rw [← hm.abs] at this
  refine Sim.bind this ?_
  rintro w' ⟨a, m1⟩ ⟨b, m1'⟩ ⟨e, hp, ha, q⟩
  exact hk w' a b m1 m1' e ⟨e.ok, hp, ha⟩ q

theorem forUp_hsim {R : Heap C → α → β → Prop} (n : ℕ) {body : ℕ → α → HM C α} {body' : ℕ → β → Go β}
    (step : ∀ i w a b, R w a b → Sim w (body i a) (body' i b) R) {w : Heap C} {a : α} {b : β}
    (hr : R w a b) : Sim w (forUp n body a) (forUp n body' b) R := by
  induction n with
  | zero => exact hr
  | succ n ih =>
    simp only [forUp]
    exact Sim.bind ih fun w' a' b' q => step n w' a' b' q

theorem ret {w : Heap C} (a : α) : Sim w (pure a : HM C α) (.ok a) (fun _ a b => a = b) := rfl

theorem consts_rel (E : Encoder C (List ℂ)) (prm : CPar C) (p : Hyper ℂ) (slotNum numCol : ℕ)
    {w : Heap C} {c5 c9 : ℕ} {c5' c9' : CCt C} (h5 : RC P w c5 c5') (h9 : RC P w c9 c9') :
    KConsts P w (Mem.mainConsts E prm p slotNum numCol c5 c9)
      (mainConsts E prm p slotNum numCol c5' c9') :=
  ⟨rfl, rfl, fun _ => rfl, h5, fun _ => rfl, fun _ => rfl, rfl, h9⟩

theorem data_rel (E : Encoder C (List ℂ)) (prm : CPar C) (p : Hyper ℂ) {w : Heap C} {z : ℕ}
    {z' : CCt C} (hz : RC P w z z') (label : List ℂ) :
    KData P w (Mem.mainData E prm p z label) (mainData E prm p z' label) :=
  ⟨hz, rfl, fun _ => rfl⟩

/-! ## lr.go -/

/-- Related states of the training loop. -/
structure TR (P : Pools) (k : Consts ℕ (RQ C × ℚ)) (k' : Consts (CCt C) (RQ C × ℚ))
    (d : Data ℕ (RQ C × ℚ)) (d' : Data (CCt C) (RQ C × ℚ)) (w : Heap C) (s : Mem.TrainSt C)
    (s' : TrainSt C) : Prop where
  consts : KConsts P w k k'
  data : KData P w d d'
  pair : KPair P {d.z} w (s.beta, s.v) (s'.beta, s'.v)
  mach : MR P w s.mach s'.mach
  dec : s.dec = s'.dec
  prints : s.prints = s'.prints

theorem trainStep_sim (E : Encoder C (List ℂ)) (prm : CPar C) (kb : KeyBag C) (sch dsch : ℕ → Sched)
    {k : Consts ℕ (RQ C × ℚ)} {k' : Consts (CCt C) (RQ C × ℚ)} (numRow numCol : ℕ)
    {d : Data ℕ (RQ C × ℚ)} {d' : Data (CCt C) (RQ C × ℚ)} (a : ℕ) {w : Heap C} {s : Mem.TrainSt C}
    {s' : TrainSt C} (h : TR P k k' d d' w s s') :
    Sim w (Mem.trainStep E prm kb sch dsch k numRow numCol d a s)
      (trainStep E prm kb sch dsch k' numRow numCol d' a s') (TR P k k' d d') := by
  obtain ⟨hk, hd, hp, hm, hdec, hpr⟩ := h
  unfold Mem.trainStep trainStep
  rw [hdec, hpr]
  refine run_bind hm (lrIter_ksim prm kb.rtkSet sch hk numRow numCol hd a hp (bad := {d.z}) ?_) ?_
  · intro x hx
    rw [Set.mem_singleton_iff.mp hx]
    exact hd.z.sep.lt
  rintro w1 ⟨beta, v⟩ ⟨beta', v'⟩ m m' e1 hm1 ⟨hp1, -⟩
  dsimp only
  replace hk := hk.step e1
  replace hd := hd.step e1
  refine decrypt_bind E _ hm1.ok hp1.beta _ _ ?_
  rintro w2 ⟨dec, r⟩ s2
  dsimp only
  refine Sim.lift_bind fun bp _ => ?_
  replace hm1 := hm1.step s2
  replace hp1 := hp1.step s2.e
  refine decrypt_bind E _ hm1.ok hp1.v _ _ ?_
  rintro w3 ⟨dec, r⟩ s3
  dsimp only
  refine Sim.lift_bind fun vp _ => ?_
  exact ⟨(hk.step s2.e).step s3.e, (hd.step s2.e).step s3.e, hp1.step s3.e, hm1.step s3, rfl, rfl⟩

theorem lrMain_sim (E : Encoder C (List ℂ)) (prm0 : CPar C) (logN : ℕ) (cfg : MainCfg)
    (rnd : MainRand C) (featureData : List (List ℂ)) (labelData : List ℂ) (h : Heap C) :
    Sim h (Mem.lrMain E prm0 logN cfg rnd featureData labelData)
      (lrMain E prm0 logN cfg rnd featureData labelData) (fun _ a b => a = b) := by
  unfold Mem.lrMain lrMain
  refine Sim.lift_bind fun lab _ => Sim.lift_bind fun idset _ => Sim.lift_bind ?_
  rintro ⟨crs, kb⟩ -
  dsimp only
  refine newEvaluator_bind fun w0 ev ok0 hev => ?_
  refine Sim.lift_bind fun pk _ => ?_
  refine encrypt_bind E _ _ _ _ _ ok0 fun w1 enc beta beta' hid s1 n1 => ?_
  dsimp only
  have hbeta := n1.1
  refine encrypt_bind E _ _ _ _ _ s1.e.ok fun w2 enc v v' _ s2 n2 => ?_
  dsimp only
  have hv := n2.1
  replace hbeta := hbeta.step s2.e
  refine Sim.lift_bind fun zVec _ => ?_
  refine encryptExpand_bind E _ _ _ _ hid _ s2.e.ok fun w3 enc z z' s3 n3 => ?_
  dsimp only
  have hz := n3.1
  have hvz := hv.ne n3.2
  replace hv := hv.step s3.e
  replace hbeta := hbeta.step s3.e
  refine Sim.lift_bind fun label _ => ?_
  refine encrypt_bind E _ _ _ _ _ s3.e.ok fun w4 enc c5 c5' _ s4 n4 => ?_
  dsimp only
  have h5 := n4.1
  refine encrypt_bind E _ _ _ _ _ s4.e.ok fun w5 enc c9 c9' _ s5 n5 => ?_
  dsimp only
  have h9 := n5.1
  replace hv := (hv.step s4.e).step s5.e
  replace hbeta := (hbeta.step s4.e).step s5.e
  replace hz := (hz.step s4.e).step s5.e
  replace h5 := h5.step s5.e
  have hm : MR ev.toPools w5 ⟨ev, kb.rlkSet, 0, []⟩ ⟨Ev.new, kb.rlkSet, 0, []⟩ := by
    refine MR.step (w := w0) ⟨ok0, rfl, by unfold PMach.abs; rw [hev]⟩ ?_
    exact (((s1.trans s2).trans s3).trans s4).trans s5
  refine Sim.bind (forUp_hsim (R := TR ev.toPools (Mem.mainConsts E _ cfg.hp cfg.slotNum cfg.numCol c5 c9)
    (mainConsts E _ cfg.hp cfg.slotNum cfg.numCol c5' c9') (Mem.mainData E _ cfg.hp z label)
    (mainData E _ cfg.hp z' label)) cfg.numIter (fun a w s s' hs =>
      trainStep_sim E _ kb rnd.sch rnd.dec cfg.numRow cfg.numCol a hs)
    ⟨consts_rel E _ cfg.hp cfg.slotNum cfg.numCol h5 h9, data_rel E _ cfg.hp hz label,
      ⟨hbeta, hv, hvz⟩, hm, rfl, rfl⟩) ?_
  rintro w6 s s' ⟨hk, hd, hp, hm, hdec, hpr⟩
  rw [hdec, hpr]
  refine Sim.lift_bind fun row _ => Sim.lift_bind fun testVec _ => ?_
  refine encryptExpand_bind E _ _ _ _ hid _ hm.ok fun w7 enc test test' s7 n7 => ?_
  dsimp only
  refine run_bind (hm.step s7) (infer_ksim _ _ _ (hk.step s7.e) cfg.numFeature n7.1
    (hp.beta.step s7.e) (hp.beta.ne n7.2).symm) ?_
  rintro w8 sg sg' m m' e8 hm8 hsg
  dsimp only
  refine decrypt_bind E _ hm8.ok hsg _ _ ?_
  rintro w9 ⟨dec, r⟩ s9
  dsimp only
  exact Sim.lift_bind fun r0 _ => Sim.lift_bind fun y _ => rfl

/-! ## lr_toy.go -/

theorem lrToyMain_sim (E : Encoder C (List ℂ)) (prm0 : CPar C) (sq : ℝ → ℝ) (logN : ℕ) (cfg : MainCfg)
    (rnd : MainRand C) (featureData : List (List ℂ)) (labelData : List ℂ) (h : Heap C) :
    Sim h (Mem.lrToyMain E prm0 sq logN cfg rnd featureData labelData)
      (lrToyMain E prm0 sq logN cfg rnd featureData labelData) (fun _ a b => a = b) := by
  unfold Mem.lrToyMain lrToyMain
  refine Sim.lift_bind fun lab _ => Sim.lift_bind fun idset _ => Sim.lift_bind ?_
  rintro ⟨crs, kb⟩ -
  dsimp only
  refine newEvaluator_bind fun w0 ev ok0 hev => ?_
  refine Sim.lift_bind fun pk _ => ?_
  refine encrypt_bind E _ _ _ _ _ ok0 fun w1 enc beta beta' hid s1 n1 => ?_
  dsimp only
  have hbeta := n1.1
  refine encrypt_bind E _ _ _ _ _ s1.e.ok fun w2 enc v v' _ s2 n2 => ?_
  dsimp only
  have hv := n2.1
  replace hbeta := hbeta.step s2.e
  refine Sim.lift_bind fun fd _ => Sim.lift_bind fun zVec _ => ?_
  refine encryptExpand_bind E _ _ _ _ hid _ s2.e.ok fun w3 enc z z' s3 n3 => ?_
  dsimp only
  have hz := n3.1
  have hvz := hv.ne n3.2
  replace hv := hv.step s3.e
  replace hbeta := hbeta.step s3.e
  refine decrypt_bind E _ s3.e.ok hz _ _ ?_
  rintro w4 ⟨dec, zd⟩ s4
  dsimp only
  refine Sim.lift_bind fun zp _ => Sim.lift_bind fun label _ => ?_
  refine encrypt_bind E _ _ _ _ _ s4.e.ok fun w5 enc c5 c5' _ s5 n5 => ?_
  dsimp only
  have h5 := n5.1
  refine encrypt_bind E _ _ _ _ _ s5.e.ok fun w6 enc c9 c9' _ s6 n6 => ?_
  dsimp only
  have h9 := n6.1
  replace hv := ((hv.step s4.e).step s5.e).step s6.e
  replace hbeta := ((hbeta.step s4.e).step s5.e).step s6.e
  replace hz := ((hz.step s4.e).step s5.e).step s6.e
  replace h5 := h5.step s6.e
  have hm : MR ev.toPools w6 ⟨ev, kb.rlkSet, 0, []⟩ ⟨Ev.new, kb.rlkSet, 0, []⟩ := by
    refine MR.step (w := w0) ⟨ok0, rfl, by unfold PMach.abs; rw [hev]⟩ ?_
    exact ((((s1.trans s2).trans s3).trans s4).trans s5).trans s6
  have hk := consts_rel E { prm0 with crs := crs } cfg.hp cfg.slotNum cfg.numCol h5 h9
  refine run_bind hm (lrTrain_ksim _ _ _ hk _ _ (data_rel E { prm0 with crs := crs } cfg.hp hz label) _
    ⟨hbeta, hv, hvz⟩) ?_
  rintro w7 ⟨b, v⟩ ⟨b', v'⟩ m m' e7 hm7 hp
  dsimp only
  replace hk := hk.step e7
  refine Sim.lift_bind fun row _ => Sim.lift_bind fun testVec _ => ?_
  refine encryptExpand_bind E _ _ _ _ hid _ hm7.ok fun w8 enc test test' s8 n8 => ?_
  dsimp only
  refine run_bind (hm7.step s8) (infer_ksim _ _ _ (hk.step s8.e) cfg.numFeature n8.1
    (hp.beta.step s8.e) (hp.beta.ne n8.2).symm) ?_
  rintro w9 sg sg' m m' e9 hm9 hsg
  dsimp only
  refine decrypt_bind E _ hm9.ok hsg _ _ ?_
  rintro w10 ⟨dec, r⟩ s10
  dsimp only
  exact Sim.lift_bind fun r0 _ => Sim.lift_bind fun y _ => rfl

/-! ## lr_minibatch.go -/

/-- Related lists of lists of ciphertexts, all different from `v`. -/
def R2 (P : Pools) (v : ℕ) (w : Heap C) (l : List (List ℕ)) (l' : List (List (CCt C))) : Prop :=
  List.Forall₂ (List.Forall₂ fun x c => RC P w x c ∧ x ≠ v) l l'

theorem tabulate_sim {R : Heap C → α → β → Prop} {I : Heap C → γ → γ → Prop} (n : ℕ)
    {f : ℕ → γ → HM C (γ × α)} {f' : ℕ → γ → Go (γ × β)} {F : Heap C → Heap C → Prop}
    (refl : ∀ w s s', I w s s' → F w w)
    (trans : ∀ w w' w'', F w w' → F w' w'' → F w w'')
    (mono : ∀ w w' a b, F w w' → R w a b → R w' a b)
    (step : ∀ i w s s', I w s s' →
      Sim w (f i s) (f' i s') fun w' t r => F w w' ∧ I w' t.1 r.1 ∧ R w' t.2 r.2)
    {w : Heap C} {s s' : γ} (hi : I w s s') :
    Sim w (Mem.tabulate n f s) (tabulate n f' s') fun w' t r =>
      F w w' ∧ I w' t.1 r.1 ∧ List.Forall₂ (R w') t.2 r.2 := by
  unfold Mem.tabulate tabulate
  refine forUp_hsim (R := fun w' (t : γ × List α) (r : γ × List β) =>
    F w w' ∧ I w' t.1 r.1 ∧ List.Forall₂ (R w') t.2 r.2) n ?_
    ⟨refl w s s' hi, hi, List.Forall₂.nil⟩
  rintro i w1 t r ⟨hF, hI, hl⟩
  refine Sim.bind (step i w1 t.1 r.1 hI) ?_
  rintro w2 ⟨t1, x⟩ ⟨r1, y⟩ ⟨hF2, hI2, hR2⟩
  refine ⟨trans _ _ _ hF hF2, hI2, ?_⟩
  exact List.rel_append (hl.imp fun a b h => mono _ _ _ _ hF2 h) (List.Forall₂.cons hR2 List.Forall₂.nil)

theorem encryptZ_sim (E : Encoder C (List ℂ)) (prm : CPar C) (s : Shape) (rnd : ℕ → ℕ → EncRand C)
    (ids : ℕ → ℕ → List String) {pk : PublicKey C} (hid : pk.id ≠ "0") (data : List (List ℂ))
    (enc : CEnc C) {w : Heap C} (ok : PoolOk w P) {v : ℕ} (hv : v < w.next) :
    Sim w (Mem.encryptZ E prm s rnd ids pk data enc) (encryptZ E prm s rnd ids pk data enc)
      fun w' t r => Step P w w' ∧ t.1 = r.1 ∧ R2 P v w' t.2 r.2 := by
  unfold Mem.encryptZ encryptZ
  have mono : ∀ (w w' : Heap C) (x : ℕ) (c : CCt C), Step P w w' → (RC P w x c ∧ x ≠ v) →
      RC P w' x c ∧ x ≠ v := fun w w' x c h r => ⟨r.1.step h.e, r.2⟩
  refine Sim.mono (tabulate_sim (R := fun w' => List.Forall₂ fun x c => RC P w' x c ∧ x ≠ v)
    (I := fun w' a b => PoolOk w' P ∧ v < w'.next ∧ a = b) (F := Step P) s.numBatch
    (fun w _ _ h => Step.refl h.1) (fun _ _ _ => Step.trans)
    (fun w w' a b h l => l.imp fun x c => mono w w' x c h) ?_ ⟨ok, hv, rfl⟩)
    fun w' t r h => ⟨h.1, h.2.1.2.2, h.2.2⟩
  rintro b w1 enc1 enc1' hI
  refine tabulate_sim (R := fun w' x c => RC P w' x c ∧ x ≠ v)
    (I := fun w' a b => PoolOk w' P ∧ v < w'.next ∧ a = b) (F := Step P) s.numCtPerBatch
    (fun w _ _ h => Step.refl h.1) (fun _ _ _ => Step.trans)
    (fun w w' a b h l => mono w w' a b h l) ?_ hI
  rintro i w2 enc2 _ ⟨ok2, hv2, rfl⟩
  refine Sim.lift_bind fun z _ => ?_
  refine Sim.mono (EncryptMsgNewExpand_sim E prm enc2 (rnd b i) z hid (ids b i)) ?_
  rintro w3 ⟨e3, x⟩ ⟨e3', c⟩ ⟨he, n⟩
  have st := Step.ofFr ok2 n.fr
  exact ⟨st, ⟨st.e.ok, hv2.trans_le n.fr.next, he⟩, ⟨n.sep ok2, n.view⟩, (hv2.trans_le n.fresh).ne'⟩

theorem R2.at {v : ℕ} {w : Heap C} {l : List (List ℕ)} {l' : List (List (CCt C))} (h : R2 P v w l l')
    {x : ℕ} {c : CCt C} (hx : RC P w x c ∧ x ≠ v) (b i : ℕ) :
    RC P w (at2 x l b i) (at2 c l' b i) ∧ at2 x l b i ≠ v := by
  unfold at2
  have aux : ∀ (a : List ℕ) (a' : List (CCt C)), List.Forall₂ (fun x c => RC P w x c ∧ x ≠ v) a a' →
      ∀ i, RC P w (a.getD i x) (a'.getD i c) ∧ a.getD i x ≠ v := by
    intro a a' ha
    induction ha with
    | nil => intro i; simpa using hx
    | cons h1 _ ih =>
      intro i
      cases i with
      | zero => simpa using h1
      | succ i => simpa using ih i
  have aux2 : ∀ b, List.Forall₂ (fun x c => RC P w x c ∧ x ≠ v) (l.getD b []) (l'.getD b []) := by
    unfold R2 at h
    induction h with
    | nil => intro b; simp
    | cons h1 _ ih =>
      intro b
      cases b with
      | zero => simpa using h1
      | succ b => simpa using ih b
  exact aux _ _ (aux2 b) i

/-- Related states of the training loop. -/
structure MbR (P : Pools) (k : Consts ℕ (RQ C × ℚ)) (k' : Consts (CCt C) (RQ C × ℚ))
    (d : ℕ → ℕ → Data ℕ (RQ C × ℚ)) (d' : ℕ → ℕ → Data (CCt C) (RQ C × ℚ)) (w : Heap C)
    (s : Mem.MbSt C) (s' : MbSt C) : Prop where
  consts : KConsts P w k k'
  data : ∀ b i, KData P w (d b i) (d' b i)
  pair : KPair P {x | ∃ b i, x = (d b i).z} w (s.beta, s.v) (s'.beta, s'.v)
  mach : MR P w s.mach s'.mach
  dec : s.dec = s'.dec
  enc : s.enc = s'.enc
  prints : s.prints = s'.prints

theorem mbStep_sim (E : Encoder C (List ℂ)) (prm : CPar C) (kb : KeyBag C) (sch dsch : ℕ → Sched)
    (rnd : ℕ → EncRand C) (pk : PublicKey C)
    {k : Consts ℕ (RQ C × ℚ)} {k' : Consts (CCt C) (RQ C × ℚ)} (s : Shape)
    {d : ℕ → ℕ → Data ℕ (RQ C × ℚ)} {d' : ℕ → ℕ → Data (CCt C) (RQ C × ℚ)} (a : ℕ) {w : Heap C}
    {st : Mem.MbSt C} {st' : MbSt C} (h : MbR P k k' d d' w st st') :
    Sim w (Mem.mbStep E prm kb sch dsch rnd pk k s d a st)
      (mbStep E prm kb sch dsch rnd pk k' s d' a st') (MbR P k k' d d') := by
  obtain ⟨hk, hd, hp, hm, hdec, henc, hpr⟩ := h
  unfold Mem.mbStep mbStep
  rw [hdec, hpr, henc]
  by_cases hb : s.numBatch = 0
  · rw [if_pos hb, if_pos hb]
    exact (rfl : _ = _)
  rw [if_neg hb, if_neg hb]
  refine encrypt_bind E _ _ _ _ _ hm.ok fun w1 enc g0 g0' hid s1 n1 => ?_
  dsimp only
  refine encrypt_bind E _ _ _ _ _ s1.e.ok fun w2 enc u0 u0' _ s2 n2 => ?_
  dsimp only
  replace hk := (hk.step s1.e).step s2.e
  replace hd := fun b i => ((hd b i).step s1.e).step s2.e
  replace hp := (hp.step s1.e).step s2.e
  replace hm := (hm.step s1).step s2
  refine run_bind hm (mbIter_ksim prm kb.rtkSet sch hk s.numDataPerCt s.slotsPerData s.numBatch
    s.numCtPerBatch hd a (zero := fun _ => (g0, u0)) (zero' := fun _ => (g0', u0')) (n1.1.step s2.e)
    n2.1 hp (bad := {x | ∃ b i, x = (d b i).z}) ?_) ?_
  · rintro x ⟨b, i, rfl⟩
    exact (hd b i).z.sep.lt
  rintro w3 ⟨beta, v⟩ ⟨beta', v'⟩ m m' e3 hm1 ⟨hp1, -⟩
  dsimp only
  replace hk := hk.step e3
  replace hd := fun b i => (hd b i).step e3
  refine decrypt_bind E _ hm1.ok hp1.beta _ _ ?_
  rintro w4 ⟨dec, r⟩ s4
  dsimp only
  refine Sim.lift_bind fun bp _ => ?_
  replace hm1 := hm1.step s4
  replace hp1 := hp1.step s4.e
  refine decrypt_bind E _ hm1.ok hp1.v _ _ ?_
  rintro w5 ⟨dec, r⟩ s5
  dsimp only
  refine Sim.lift_bind fun vp _ => ?_
  exact ⟨(hk.step s4.e).step s5.e, fun b i => ((hd b i).step s4.e).step s5.e, hp1.step s5.e,
    hm1.step s5, rfl, rfl, rfl⟩

theorem mbMain_sim (E : Encoder C (List ℂ)) (prm0 : CPar C) (logN : ℕ) (cfg : MbCfg)
    (rnd : MainRand C) (featureData : List (List ℂ)) (labelData : List ℂ) (h : Heap C) :
    Sim h (Mem.mbMain E prm0 logN cfg rnd featureData labelData)
      (mbMain E prm0 logN cfg rnd featureData labelData) (fun _ a b => a = b) := by
  unfold Mem.mbMain mbMain
  refine Sim.lift_bind fun lab _ => Sim.lift_bind fun idset _ => Sim.lift_bind ?_
  rintro ⟨crs, kb⟩ -
  dsimp only
  refine newEvaluator_bind fun w0 ev ok0 hev => ?_
  refine Sim.lift_bind fun pk _ => ?_
  refine encrypt_bind E _ _ _ _ _ ok0 fun w1 enc beta beta' hid s1 n1 => ?_
  dsimp only
  have hbeta := n1.1
  refine encrypt_bind E _ _ _ _ _ s1.e.ok fun w2 enc v v' _ s2 n2 => ?_
  dsimp only
  have hv := n2.1
  have hbv := hbeta.ne n2.2
  replace hbeta := hbeta.step s2.e
  refine Sim.bind (encryptZ_sim E _ _ _ _ hid featureData enc s2.e.ok hv.sep.lt) ?_
  rintro w3 ⟨enc, z⟩ ⟨_, z'⟩ ⟨s3, rfl, hz⟩
  dsimp only at hz ⊢
  replace hv := hv.step s3.e
  replace hbeta := hbeta.step s3.e
  refine Sim.lift_bind fun label _ => ?_
  refine encrypt_bind E _ _ _ _ _ s3.e.ok fun w4 enc c5 c5' _ s4 n4 => ?_
  dsimp only
  have h5 := n4.1
  refine encrypt_bind E _ _ _ _ _ s4.e.ok fun w5 enc c9 c9' _ s5 n5 => ?_
  dsimp only
  have h9 := n5.1
  have hz0 := fun b i => hz.at ⟨hbeta, hbv⟩ b i
  replace hv := (hv.step s4.e).step s5.e
  replace hbeta := (hbeta.step s4.e).step s5.e
  replace h5 := h5.step s5.e
  have hm : MR ev.toPools w5 ⟨ev, kb.rlkSet, 0, []⟩ ⟨Ev.new, kb.rlkSet, 0, []⟩ := by
    refine MR.step (w := w0) ⟨ok0, rfl, by unfold PMach.abs; rw [hev]⟩ ?_
    exact (((s1.trans s2).trans s3).trans s4).trans s5
  refine Sim.bind (forUp_hsim (R := MbR ev.toPools
    (Mem.mainConsts E _ cfg.hp cfg.numSlots cfg.maskW c5 c9)
    (mainConsts E _ cfg.hp cfg.numSlots cfg.maskW c5' c9')
    (fun b i => Mem.mainData E _ cfg.hp (at2 beta z b i) (at2 [] label b i))
    (fun b i => mainData E _ cfg.hp (at2 beta' z' b i) (at2 [] label b i))) cfg.numIter
    (fun a w s s' hs => mbStep_sim E _ kb rnd.sch rnd.dec _ pk cfg.shape a hs)
    ⟨consts_rel E _ cfg.hp cfg.numSlots cfg.maskW h5 h9,
      fun b i => data_rel E _ cfg.hp (((hz0 b i).1.step s4.e).step s5.e) _,
      ⟨hbeta, hv, ?_⟩, hm, rfl, rfl, rfl⟩) ?_
  · rintro ⟨b, i, he⟩
    exact (hz0 b i).2 he.symm
  rintro w6 s s' ⟨hk, hd, hp, hm, hdec, henc, hpr⟩
  rw [hdec, hpr, henc]
  refine Sim.lift_bind fun row _ => Sim.lift_bind fun testVec _ => ?_
  refine encryptExpand_bind E _ _ _ _ hid _ hm.ok fun w7 enc test test' s7 n7 => ?_
  dsimp only
  refine run_bind (hm.step s7) (infer_ksim _ _ _ (hk.step s7.e) cfg.numFeature n7.1
    (hp.beta.step s7.e) (hp.beta.ne n7.2).symm) ?_
  rintro w8 sg sg' m m' e8 hm8 hsg
  dsimp only
  refine decrypt_bind E _ hm8.ok hsg _ _ ?_
  rintro w9 ⟨dec, r⟩ s9
  dsimp only
  exact Sim.lift_bind fun r0 _ => Sim.lift_bind fun y _ => rfl

/-! ## lr_minibatch_toy.go -/

/-- Related states of the inference loop. -/
structure InR (P : Pools) (k : Consts ℕ (RQ C × ℚ)) (k' : Consts (CCt C) (RQ C × ℚ)) (beta : ℕ)
    (beta' : CCt C) (w : Heap C) (s : Mem.InferSt C) (s' : InferSt C) : Prop where
  consts : KConsts P w k k'
  beta : RC P w beta beta'
  mach : MR P w s.mach s'.mach
  dec : s.dec = s'.dec
  enc : s.enc = s'.enc
  results : s.results = s'.results
  correct : s.correct = s'.correct

theorem inferStep_sim (E : Encoder C (List ℂ)) (prm : CPar C) (kb : KeyBag C) (sch dsch : ℕ → Sched)
    (rnd : ℕ → EncRand C) (ids : ℕ → List String) {pk : PublicKey C} (hid : pk.id ≠ "0")
    {k : Consts ℕ (RQ C × ℚ)} {k' : Consts (CCt C) (RQ C × ℚ)} (numSlots numFeature : ℕ)
    (featureData : List (List ℂ)) (labelData : List ℂ) {beta : ℕ} {beta' : CCt C} (i : ℕ)
    {w : Heap C} {st : Mem.InferSt C} {st' : InferSt C} (h : InR P k k' beta beta' w st st') :
    Sim w (Mem.inferStep E prm kb sch dsch rnd ids pk k numSlots numFeature featureData labelData beta i st)
      (inferStep E prm kb sch dsch rnd ids pk k' numSlots numFeature featureData labelData beta' i st')
      (InR P k k' beta beta') := by
  obtain ⟨hk, hb, hm, hdec, henc, hres, hcor⟩ := h
  unfold Mem.inferStep inferStep
  rw [hdec, henc, hres, hcor]
  refine Sim.lift_bind fun row _ => Sim.lift_bind fun testVec _ => ?_
  refine encryptExpand_bind E _ _ _ _ hid _ hm.ok fun w7 enc test test' s7 n7 => ?_
  dsimp only
  refine run_bind (hm.step s7) (infer_ksim _ _ _ (hk.step s7.e) numFeature n7.1
    (hb.step s7.e) (hb.ne n7.2).symm) ?_
  rintro w8 sg sg' m m' e8 hm8 hsg
  dsimp only
  refine decrypt_bind E _ hm8.ok hsg _ _ ?_
  rintro w9 ⟨dec, r⟩ s9
  dsimp only
  refine Sim.lift_bind fun r0 _ => Sim.lift_bind fun y _ => ?_
  exact ⟨((hk.step s7.e).step e8).step s9.e, ((hb.step s7.e).step e8).step s9.e, hm8.step s9, rfl, rfl,
    rfl, rfl⟩

theorem mbToyMain_sim (E : Encoder C (List ℂ)) (prm0 : CPar C) (sq : ℝ → ℝ) (logN : ℕ) (cfg : MbCfg)
    (rnd : MainRand C) (featureData : List (List ℂ)) (labelData : List ℂ) (h : Heap C) :
    Sim h (Mem.mbToyMain E prm0 sq logN cfg rnd featureData labelData)
      (mbToyMain E prm0 sq logN cfg rnd featureData labelData) (fun _ a b => a = b) := by
  unfold Mem.mbToyMain mbToyMain
  refine Sim.lift_bind fun lab _ => Sim.lift_bind fun idset _ => Sim.lift_bind ?_
  rintro ⟨crs, kb⟩ -
  dsimp only
  refine newEvaluator_bind fun w0 ev ok0 hev => ?_
  refine Sim.lift_bind fun pk _ => ?_
  refine encrypt_bind E _ _ _ _ _ ok0 fun w1 enc beta beta' hid s1 n1 => ?_
  dsimp only
  have hbeta := n1.1
  refine encrypt_bind E _ _ _ _ _ s1.e.ok fun w2 enc v v' _ s2 n2 => ?_
  dsimp only
  have hv := n2.1
  have hbv := hbeta.ne n2.2
  replace hbeta := hbeta.step s2.e
  refine Sim.lift_bind fun fd _ => ?_
  refine Sim.bind (encryptZ_sim E _ _ _ _ hid fd enc s2.e.ok hv.sep.lt) ?_
  rintro w3 ⟨enc, z⟩ ⟨_, z'⟩ ⟨s3, rfl, hz⟩
  dsimp only at hz ⊢
  replace hv := hv.step s3.e
  replace hbeta := hbeta.step s3.e
  refine Sim.lift_bind fun label _ => ?_
  refine encrypt_bind E _ _ _ _ _ s3.e.ok fun w4 enc c5 c5' _ s4 n4 => ?_
  dsimp only
  have h5 := n4.1
  refine encrypt_bind E _ _ _ _ _ s4.e.ok fun w5 enc c9 c9' _ s5 n5 => ?_
  dsimp only
  have h9 := n5.1
  have hz0 := fun b i => hz.at ⟨hbeta, hbv⟩ b i
  replace hv := (hv.step s4.e).step s5.e
  replace hbeta := (hbeta.step s4.e).step s5.e
  replace h5 := h5.step s5.e
  have hm : MR ev.toPools w5 ⟨ev, kb.rlkSet, 0, []⟩ ⟨Ev.new, kb.rlkSet, 0, []⟩ := by
    refine MR.step (w := w0) ⟨ok0, rfl, by unfold PMach.abs; rw [hev]⟩ ?_
    exact (((s1.trans s2).trans s3).trans s4).trans s5
  refine Sim.bind (forUp_hsim (R := MbR ev.toPools
    (Mem.mainConsts E _ cfg.hp cfg.numSlots cfg.maskW c5 c9)
    (mainConsts E _ cfg.hp cfg.numSlots cfg.maskW c5' c9')
    (fun b i => Mem.mainData E _ cfg.hp (at2 beta z b i) (at2 [] label b i))
    (fun b i => mainData E _ cfg.hp (at2 beta' z' b i) (at2 [] label b i))) cfg.numIter
    (fun a w s s' hs => mbStep_sim E _ kb rnd.sch rnd.dec _ pk cfg.shape a hs)
    ⟨consts_rel E _ cfg.hp cfg.numSlots cfg.maskW h5 h9,
      fun b i => data_rel E _ cfg.hp (((hz0 b i).1.step s4.e).step s5.e) _,
      ⟨hbeta, hv, ?_⟩, hm, rfl, rfl, rfl⟩) ?_
  · rintro ⟨b, i, he⟩
    exact (hz0 b i).2 he.symm
  rintro w6 s s' ⟨hk, hd, hp, hm, hdec, henc, hpr⟩
  rw [hdec, hpr, henc]
  refine Sim.bind (forUp_hsim (R := InR ev.toPools
    (Mem.mainConsts E _ cfg.hp cfg.numSlots cfg.maskW c5 c9)
    (mainConsts E _ cfg.hp cfg.numSlots cfg.maskW c5' c9') s.beta s'.beta) cfg.numData
    (fun i w t t' ht => inferStep_sim E _ kb rnd.sch _ _ _ hid cfg.numSlots cfg.numFeature fd lab i ht)
    ⟨hk, hp.beta, hm, rfl, rfl, rfl, rfl⟩) ?_
  rintro w7 t t' ⟨_, _, _, _, _, hres, hcor⟩
  rw [hres, hcor]
  exact (rfl : _ = _)

/-! ## C58 -/

/-- What a program on the memory prints, or its panic. -/
def prints (m : HM C α) (h : Heap C) : Go α :=
  match m h with
  | .ok r => .ok r.1
  | .error p => .error p

theorem Sim.prints_eq {h : Heap C} {m : HM C α} {f : Go α} (hs : Sim h m f fun _ a b => a = b) :
    prints m h = f := by
  unfold Sim at hs
  unfold prints
  cases hm : m h <;> cases f <;> simp_all

/-- **C58**, lr.go: started on any memory, the program on pointers prints what the program on values
prints, or panics with the same panic. -/
theorem C58_lr (E : Encoder C (List ℂ)) (prm : CPar C) (logN : ℕ) (cfg : MainCfg) (rnd : MainRand C)
    (x : List (List ℂ)) (y : List ℂ) (h : Heap C) :
    prints (Mem.lrMain E prm logN cfg rnd x y) h = lrMain E prm logN cfg rnd x y :=
  Sim.prints_eq (lrMain_sim E prm logN cfg rnd x y h)

/-- **C58**, lr_toy.go. -/
theorem C58_lrToy (E : Encoder C (List ℂ)) (prm : CPar C) (sq : ℝ → ℝ) (logN : ℕ) (cfg : MainCfg)
    (rnd : MainRand C) (x : List (List ℂ)) (y : List ℂ) (h : Heap C) :
    prints (Mem.lrToyMain E prm sq logN cfg rnd x y) h = lrToyMain E prm sq logN cfg rnd x y :=
  Sim.prints_eq (lrToyMain_sim E prm sq logN cfg rnd x y h)

/-- **C58**, lr_minibatch.go. -/
theorem C58_mb (E : Encoder C (List ℂ)) (prm : CPar C) (logN : ℕ) (cfg : MbCfg) (rnd : MainRand C)
    (x : List (List ℂ)) (y : List ℂ) (h : Heap C) :
    prints (Mem.mbMain E prm logN cfg rnd x y) h = mbMain E prm logN cfg rnd x y :=
  Sim.prints_eq (mbMain_sim E prm logN cfg rnd x y h)

/-- **C58**, lr_minibatch_toy.go. -/
theorem C58_mbToy (E : Encoder C (List ℂ)) (prm : CPar C) (sq : ℝ → ℝ) (logN : ℕ) (cfg : MbCfg)
    (rnd : MainRand C) (x : List (List ℂ)) (y : List ℂ) (h : Heap C) :
    prints (Mem.mbToyMain E prm sq logN cfg rnd x y) h = mbToyMain E prm sq logN cfg rnd x y :=
  Sim.prints_eq (mbToyMain_sim E prm sq logN cfg rnd x y h)

end MK.Lr
