import Verif.Props.LrLevels
import Verif.Props.LrPack

/-!
# C42, C50: training and inference on the evaluator

The programs of `Verif/Lr.lean` run on the evaluator (`realHE`).  Three simulations are put
together: the run follows `boundHE` (`realHE_sim`), `boundHE` is defined where the exponents of
`metaHE` stay below `K` (`boundHE_sim`), and its slot values are those of exact slot arithmetic
(`slots_sim`).
-/

noncomputable section

namespace MK.Lr

open Finset

variable {C : Ctx}

/-- A fact about the result, if there is one. -/
def optIdRel : MonadRel Option Id where
  rel R o a := ∀ v, o = some v → R v a
  pure h v hv := by cases hv; exact h
  bind {_ _ _ _ _ _ m₁ m₂ f₁ f₂} h hf v hv := by
    cases e : m₁ with
    | none => rw [e] at hv; cases hv
    | some y =>
      rw [e] at hv
      exact hf y m₂ (h y e) v hv

/-- The slot values of `boundHE` are exact slot arithmetic. -/
theorem slots_sim (prm : CPar C) (n : ℕ) [NeZero n] (c : ℕ) (D T B : ℤ) :
    HESim optIdRel (boundHE prm n c D T B) (slotsHE n ℂ) (fun v x => v.x = x)
      (fun p x => p.x = x) where
  mul := by
    rintro a b _ _ rfl rfl v hv
    simp only [boundHE] at hv
    split at hv
    · cases hv; rfl
    · cases hv
  sq := by
    rintro a _ rfl v hv
    simp only [boundHE] at hv
    split at hv
    · cases hv; rfl
    · cases hv
  mulPtxt := by
    rintro a _ p _ rfl rfl v hv
    simp only [boundHE] at hv
    split at hv
    · cases hv; rfl
    · cases hv
  add := by
    rintro a b _ _ rfl rfl v hv
    simp only [boundHE] at hv
    split at hv
    · cases hv; rfl
    · cases hv
  rotate := by
    rintro a _ k rfl v hv
    simp only [boundHE] at hv
    cases hv; rfl

/-! ## Fresh inputs -/

/-- A fresh encryption of the slots `x`: top level, the parameters' scale, slot error `ε`. -/
def freshVal (prm : CPar C) {n : ℕ} (ε : ℝ) (x : Slots n ℂ) : AVal n := ⟨x, C.nQ - 1, prm.scale, ε⟩

/-- An encoded plaintext with encoding error `ε`. -/
def freshPt {n : ℕ} (ε : ℝ) (x : Slots n ℂ) : PVal n := ⟨x, ε⟩

/-- The constants, each replaced. -/
def Consts.map {C₁ C₂ P₁ P₂ : Type} (f : C₁ → C₂) (g : P₁ → P₂) (k : Consts C₁ P₁) : Consts C₂ P₂ :=
  ⟨g k.mask, g k.c3, fun a => g (k.c4 a), f k.c5, fun a => g (k.c6 a), fun a => g (k.c7 a), g k.c8,
    f k.c9⟩

/-- The data, each replaced. -/
def Data.map {C₁ C₂ P₁ P₂ : Type} (f : C₁ → C₂) (g : P₁ → P₂) (d : Data C₁ P₁) : Data C₂ P₂ :=
  ⟨f d.z, g d.k1, fun a => g (d.k2 a)⟩

/-- `ct` is a fresh encryption of `x`. -/
def Fresh (prm : CPar C) (s : String → Nega C.N ℤ) (S : Finset String) (ε : ℝ) {n : ℕ} (ct : CCt C)
    (x : Slots n ℂ) : Prop := Shows s S ct (freshVal prm ε x)

/-- `p` encodes `x`. -/
def Encodes (prm : CPar C) (ε : ℝ) {n : ℕ} (p : RQ C × ℚ) (x : Slots n ℂ) : Prop :=
  ShowsPt prm p (freshPt ε x)

theorem ConstsRel.map {C₁ C₂ C₃ P₁ P₂ P₃ : Type} {RC : C₁ → C₃ → Prop} {RP : P₁ → P₃ → Prop}
    {f : C₂ → C₃} {g : P₂ → P₃} {k₁ : Consts C₁ P₁} {k₂ : Consts C₂ P₂}
    (h : ConstsRel (fun a b => RC a (f b)) (fun a b => RP a (g b)) k₁ k₂) :
    ConstsRel RC RP k₁ (k₂.map f g) :=
  ⟨h.mask, h.c3, h.c4, h.c5, h.c6, h.c7, h.c8, h.c9⟩

theorem DataRel.map {C₁ C₂ C₃ P₁ P₂ P₃ : Type} {RC : C₁ → C₃ → Prop} {RP : P₁ → P₃ → Prop}
    {f : C₂ → C₃} {g : P₂ → P₃} {d₁ : Data C₁ P₁} {d₂ : Data C₂ P₂}
    (h : DataRel (fun a b => RC a (f b)) (fun a b => RP a (g b)) d₁ d₂) :
    DataRel RC RP d₁ (d₂.map f g) := ⟨h.z, h.k1, h.k2⟩

variable {n : ℕ} {prm : CPar C} {r : ℚ} {K : ℕ}

theorem constsShow {s : String → Nega C.N ℤ} {S : Finset String} {ε : ℝ}
    {k : Consts (CCt C) (RQ C × ℚ)} {kx : Consts (Slots n ℂ) (Slots n ℂ)}
    (hk : ConstsRel (Fresh prm s S ε) (Encodes prm ε) k kx) :
    ConstsRel (Shows s S) (ShowsPt prm) k (kx.map (freshVal prm ε) (freshPt ε)) :=
  ConstsRel.map (f := freshVal prm ε) (g := freshPt ε) hk

theorem dataShow {s : String → Nega C.N ℤ} {S : Finset String} {ε : ℝ}
    {d : Data (CCt C) (RQ C × ℚ)} {dx : Data (Slots n ℂ) (Slots n ℂ)}
    (hd : DataRel (Fresh prm s S ε) (Encodes prm ε) d dx) :
    DataRel (Shows s S) (ShowsPt prm) d (dx.map (freshVal prm ε) (freshPt ε)) :=
  DataRel.map (f := freshVal prm ε) (g := freshPt ε) hd

theorem freshVal_meta (H : Chain prm r K) (hC : C.Good) (ε : ℝ) (x : Slots n ℂ) :
    HasMeta C prm.scale r (freshVal prm ε x) (C.nQ - 1, 0) := by
  have hS : 0 < prm.scale := lt_of_lt_of_le (by norm_num) H.scale
  exact ⟨rfl, Nat.sub_lt hC.nQ_pos one_pos, hS, by simp [freshVal], by simp [freshVal]⟩

theorem consts_meta (H : Chain prm r K) (hC : C.Good) (ε : ℝ)
    (k : Consts (Slots n ℂ) (Slots n ℂ)) :
    ConstsRel (HasMeta C prm.scale r) (fun _ _ => True) (k.map (freshVal prm ε) (freshPt ε))
      (metaConsts (C.nQ - 1)) :=
  ⟨trivial, trivial, fun _ => trivial, freshVal_meta H hC ε _, fun _ => trivial, fun _ => trivial,
    trivial, freshVal_meta H hC ε _⟩

theorem data_meta (H : Chain prm r K) (hC : C.Good) (ε : ℝ) (d : Data (Slots n ℂ) (Slots n ℂ)) :
    DataRel (HasMeta C prm.scale r) (fun _ _ => True) (d.map (freshVal prm ε) (freshPt ε))
      (metaData (C.nQ - 1)) :=
  ⟨freshVal_meta H hC ε _, trivial, fun _ => trivial⟩

theorem consts_slots (prm : CPar C) (ε : ℝ) (k : Consts (Slots n ℂ) (Slots n ℂ)) :
    ConstsRel (fun (v : AVal n) x => v.x = x) (fun (p : PVal n) x => p.x = x)
      (k.map (freshVal prm ε) (freshPt ε)) k :=
  ⟨rfl, rfl, fun _ => rfl, rfl, fun _ => rfl, fun _ => rfl, rfl, rfl⟩

theorem data_slots (prm : CPar C) (ε : ℝ) (d : Data (Slots n ℂ) (Slots n ℂ)) :
    DataRel (fun (v : AVal n) x => v.x = x) (fun (p : PVal n) x => p.x = x)
      (d.map (freshVal prm ε) (freshPt ε)) d :=
  ⟨rfl, rfl, fun _ => rfl⟩

/-! ## What the bounds compute -/

variable [NeZero n]

/-- The description of training: result slots, level, scale and error bound, from the operation
bounds of `boundHE`. -/
def trainVal (prm : CPar C) (n : ℕ) [NeZero n] (c : ℕ) (D T B : ℤ) (ε : ℝ)
    (k : Consts (Slots n ℂ) (Slots n ℂ)) (numRow numCol : ℕ) (d : Data (Slots n ℂ) (Slots n ℂ))
    (numIter : ℕ) (xb xv : Slots n ℂ) : Option (AVal n × AVal n) :=
  lrTrain (boundHE prm n c D T B) (k.map (freshVal prm ε) (freshPt ε)) numRow numCol
    (d.map (freshVal prm ε) (freshPt ε)) numIter (freshVal prm ε xb) (freshVal prm ε xv)

/-- The description of training in minibatches. -/
def mbTrainVal (prm : CPar C) (n : ℕ) [NeZero n] (c : ℕ) (D T B : ℤ) (ε : ℝ)
    (k : Consts (Slots n ℂ) (Slots n ℂ)) (numRow numCol numBatch numCt : ℕ)
    (d : ℕ → ℕ → Data (Slots n ℂ) (Slots n ℂ)) (numIter : ℕ) (xb xv : Slots n ℂ) :
    Option (AVal n × AVal n) :=
  mbTrain (boundHE prm n c D T B) (k.map (freshVal prm ε) (freshPt ε)) numRow numCol numBatch numCt
    (fun b i => (d b i).map (freshVal prm ε) (freshPt ε))
    (fun _ => (freshVal prm ε 0, freshVal prm ε 0)) numIter (freshVal prm ε xb) (freshVal prm ε xv)

/-- The description of inference. -/
def inferVal (prm : CPar C) (n : ℕ) [NeZero n] (c : ℕ) (D T B : ℤ) (ε : ℝ)
    (k : Consts (Slots n ℂ) (Slots n ℂ)) (numFeature : ℕ) (xt : Slots n ℂ) (vb : AVal n) :
    Option (AVal n) :=
  infer (boundHE prm n c D T B) (k.map (freshVal prm ε) (freshPt ε)) numFeature
    (freshVal prm ε xt) vb

theorem trainVal_spec (H : Chain prm r K) (hC : C.Good) (hF : prm.fl.Ok) (c : ℕ) (D T B : ℤ) (ε : ℝ)
    (k : Consts (Slots n ℂ) (Slots n ℂ)) (numRow numCol : ℕ) (d : Data (Slots n ℂ) (Slots n ℂ))
    {numIter : ℕ} (hL : 4 * numIter ≤ C.nQ - 1) (hK : 2 * kAfter numIter ≤ K)
    (xb xv : Slots n ℂ) :
    ∃ vb vv, trainVal prm n c D T B ε k numRow numCol d numIter xb xv = some (vb, vv) ∧
      HasMeta C prm.scale r vb (C.nQ - 1 - 4 * numIter, kAfter numIter) ∧
      HasMeta C prm.scale r vv (C.nQ - 1 - 4 * numIter, kAfter numIter) ∧
      (vb.x, vv.x) = (lrTrain (slotsHE n ℂ) k numRow numCol d numIter xb xv : Id _) := by
  obtain ⟨⟨vb, vv⟩, e, h1, h2⟩ := lrTrain_sim (boundHE_sim (n := n) H hC hF c D T B)
    (consts_meta H hC ε k) numRow numCol (data_meta H hC ε d) numIter (freshVal_meta H hC ε xb)
    (freshVal_meta H hC ε xv) _ (meta_lrTrain hL hK numRow numCol)
  obtain ⟨h3, h4⟩ := lrTrain_sim (slots_sim prm n c D T B) (consts_slots prm ε k) numRow numCol
    (data_slots prm ε d) numIter (b := freshVal prm ε xb) (v := freshVal prm ε xv) (b' := xb)
    (v' := xv) rfl rfl _ e
  exact ⟨vb, vv, e, h1, h2, Prod.ext h3 h4⟩

theorem mbTrainVal_spec (H : Chain prm r K) (hC : C.Good) (hF : prm.fl.Ok) (c : ℕ) (D T B : ℤ)
    (ε : ℝ) (k : Consts (Slots n ℂ) (Slots n ℂ)) (numRow numCol numBatch : ℕ) {numCt : ℕ}
    (hc : 1 ≤ numCt) (d : ℕ → ℕ → Data (Slots n ℂ) (Slots n ℂ)) {numIter : ℕ}
    (hL : 4 * numIter ≤ C.nQ - 1) (hK : 2 * kAfter numIter ≤ K) (xb xv : Slots n ℂ) :
    ∃ vb vv, mbTrainVal prm n c D T B ε k numRow numCol numBatch numCt d numIter xb xv =
        some (vb, vv) ∧
      HasMeta C prm.scale r vb (C.nQ - 1 - 4 * numIter, kAfter numIter) ∧
      HasMeta C prm.scale r vv (C.nQ - 1 - 4 * numIter, kAfter numIter) ∧
      (vb.x, vv.x) = (mbTrain (slotsHE n ℂ) k numRow numCol numBatch numCt d (fun _ => (0, 0))
        numIter xb xv : Id _) := by
  obtain ⟨⟨vb, vv⟩, e, h1, h2⟩ := mbTrain_sim (boundHE_sim (n := n) H hC hF c D T B)
    (consts_meta H hC ε k) numRow numCol numBatch numCt (fun b i => data_meta H hC ε (d b i))
    (z₁ := fun _ => (freshVal prm ε 0, freshVal prm ε 0))
    (fun _ => ⟨freshVal_meta H hC ε 0, freshVal_meta H hC ε 0⟩) numIter (freshVal_meta H hC ε xb)
    (freshVal_meta H hC ε xv) _ (meta_mbTrain hL hK numRow numCol numBatch hc)
  obtain ⟨h3, h4⟩ := mbTrain_sim (slots_sim prm n c D T B) (consts_slots prm ε k) numRow numCol
    numBatch numCt (fun b i => data_slots prm ε (d b i))
    (z₁ := fun _ => (freshVal prm ε 0, freshVal prm ε 0)) (z₂ := fun _ => (0, 0))
    (fun _ => ⟨rfl, rfl⟩) numIter (b := freshVal prm ε xb) (v := freshVal prm ε xv) (b' := xb)
    (v' := xv) rfl rfl _ e
  exact ⟨vb, vv, e, h1, h2, Prod.ext h3 h4⟩

theorem inferVal_spec (H : Chain prm r K) (hC : C.Good) (hF : prm.fl.Ok) (c : ℕ) (D T B : ℤ) (ε : ℝ)
    (k : Consts (Slots n ℂ) (Slots n ℂ)) (numFeature : ℕ) (xt : Slots n ℂ) {vb : AVal n} {l e : ℕ}
    (hb : HasMeta C prm.scale r vb (l, e)) (hl : 3 ≤ l) (hK : 3 * e + 6 ≤ K) :
    ∃ vr, inferVal prm n c D T B ε k numFeature xt vb = some vr ∧
      HasMeta C prm.scale r vr (l - 3, 3 * e + 6) ∧
      vr.x = (infer (slotsHE n ℂ) k numFeature xt vb.x : Id _) := by
  have hl' : l ≤ C.nQ - 1 := by have := hb.2.1; simp only at this; omega
  obtain ⟨vr, e1, h1⟩ := infer_sim (boundHE_sim (n := n) H hC hF c D T B) (consts_meta H hC ε k)
    numFeature (freshVal_meta H hC ε xt) hb _ (meta_infer hl' hl hK numFeature)
  exact ⟨vr, e1, h1, infer_sim (slots_sim prm n c D T B) (consts_slots prm ε k) numFeature
    (x := freshVal prm ε xt) (x' := xt) rfl (b := vb) (b' := vb.x) rfl _ e1⟩

/-! ## C42 -/

variable {S : Finset String} {rkSet : RotationKeySet (RotKey C)} {rk : String → RelinKey C}
  {s : String → Nega C.N ℤ} {D T B : ℤ} {ε : ℝ}

/-- **C42 (training, lr.go).** Let the moduli be within a factor `r` of the scale with
`r^K ≤ 3/2`, `K ≥ 10 (3^numIter - 1)`, and at least `4 numIter + 1` moduli.  Then training
succeeds for all data, keys, iteration orders and states of the evaluator's memory; every product
made on the way was rescaled by exactly one modulus (`Mach.Ok`), so no ignored error of `Rescale`
occurred; `beta` and `v` are `4 numIter` levels below the top; and they hold the slots which the same
program computes in exact arithmetic, up to the errors of `trainVal`. -/
theorem C42_training (E : Setup prm n S rkSet rk s D T B) (H : Chain prm r K) {numIter : ℕ}
    (hL : 4 * numIter + 1 ≤ C.nQ) (hK : 10 * (3 ^ numIter - 1) ≤ K) {k : Consts (CCt C) (RQ C × ℚ)}
    {kx : Consts (Slots n ℂ) (Slots n ℂ)}
    (hk : ConstsRel (Fresh prm s S ε) (Encodes prm ε) k kx) (numRow numCol : ℕ)
    {d : Data (CCt C) (RQ C × ℚ)} {dx : Data (Slots n ℂ) (Slots n ℂ)}
    (hd : DataRel (Fresh prm s S ε) (Encodes prm ε) d dx) {beta v : CCt C} {xb xv : Slots n ℂ}
    (hb : Fresh prm s S ε beta xb) (hv : Fresh prm s S ε v xv) (sch : ℕ → Sched) {m : Mach C}
    (hm : m.Ok S rk) :
    ∃ beta' v' m' vb vv,
      lrTrain (realHE prm rkSet sch) k numRow numCol d numIter beta v m = .ok ((beta', v'), m') ∧
      m'.Ok S rk ∧
      beta'.ct.Wf (C.nQ - 1 - 4 * numIter) false ∧ v'.ct.Wf (C.nQ - 1 - 4 * numIter) false ∧
      trainVal prm n S.card D T B ε kx numRow numCol dx numIter xb xv = some (vb, vv) ∧
      Shows s S beta' vb ∧ Shows s S v' vv ∧
      (vb.x, vv.x) = (lrTrain (slotsHE n ℂ) kx numRow numCol dx numIter xb xv : Id _) := by
  have hK' : 2 * kAfter numIter ≤ K := by unfold kAfter; omega
  obtain ⟨vb, vv, e, m1, m2, hx⟩ := trainVal_spec H E.good E.fl S.card D T B ε kx numRow numCol dx
    (numIter := numIter) (by omega) hK' xb xv
  obtain ⟨⟨b', v'⟩, m', e1, hm', s1, s2⟩ := lrTrain_sim (realHE_sim E sch) (constsShow hk) numRow numCol
    (dataShow hd) numIter hb hv _ e m hm
  have w1 := s1.wf
  have w2 := s2.wf
  rw [m1.1] at w1
  rw [m2.1] at w2
  exact ⟨b', v', m', vb, vv, e1, hm', w1, w2, e, s1, s2, hx⟩

/-- **C42 (training and inference, lr.go).** With three more levels and `K ≥ 15 (3^numIter - 1) + 6`
the inference on the trained model succeeds too, three levels further down, again with every
product rescaled exactly once. -/
theorem C42_training_inference (E : Setup prm n S rkSet rk s D T B) (H : Chain prm r K)
    {numIter : ℕ} (hL : 4 * numIter + 4 ≤ C.nQ) (hK : 15 * (3 ^ numIter - 1) + 6 ≤ K)
    {k : Consts (CCt C) (RQ C × ℚ)} {kx : Consts (Slots n ℂ) (Slots n ℂ)}
    (hk : ConstsRel (Fresh prm s S ε) (Encodes prm ε) k kx) (numRow numCol numFeature : ℕ)
    {d : Data (CCt C) (RQ C × ℚ)} {dx : Data (Slots n ℂ) (Slots n ℂ)}
    (hd : DataRel (Fresh prm s S ε) (Encodes prm ε) d dx) {beta v test : CCt C}
    {xb xv xt : Slots n ℂ} (hb : Fresh prm s S ε beta xb) (hv : Fresh prm s S ε v xv)
    (ht : Fresh prm s S ε test xt) (sch : ℕ → Sched) {m : Mach C} (hm : m.Ok S rk) :
    ∃ out m' vb vv vr,
      (do
        let (beta', _) ← lrTrain (realHE prm rkSet sch) k numRow numCol d numIter beta v
        infer (realHE prm rkSet sch) k numFeature test beta') m = .ok (out, m') ∧
      m'.Ok S rk ∧ out.ct.Wf (C.nQ - 1 - 4 * numIter - 3) false ∧
      trainVal prm n S.card D T B ε kx numRow numCol dx numIter xb xv = some (vb, vv) ∧
      inferVal prm n S.card D T B ε kx numFeature xt vb = some vr ∧ Shows s S out vr ∧
      vr.x = (infer (slotsHE n ℂ) kx numFeature xt
        (lrTrain (slotsHE n ℂ) kx numRow numCol dx numIter xb xv : Id _).1 : Id _) := by
  obtain ⟨vb, vv, e, m1, m2, hx⟩ := trainVal_spec H E.good E.fl S.card D T B ε kx numRow numCol dx
    (numIter := numIter) (by omega) (by unfold kAfter; omega) xb xv
  obtain ⟨vr, er, mr, hxr⟩ := inferVal_spec H E.good E.fl S.card D T B ε kx numFeature xt m1
    (by omega) (by unfold kAfter; omega)
  obtain ⟨⟨b', v'⟩, m', e1, hm', s1, -⟩ := lrTrain_sim (realHE_sim E sch) (constsShow hk) numRow numCol
    (dataShow hd) numIter hb hv _ e m hm
  obtain ⟨out, m'', e2, hm'', s2⟩ := infer_sim (realHE_sim E sch) (constsShow hk) numFeature ht s1 _ er m' hm'
  refine ⟨out, m'', vb, vv, vr, ?_, hm'', ?_, e, er, s2, ?_⟩
  · show (lrTrain (realHE prm rkSet sch) k numRow numCol d numIter beta v m >>= _) = _
    rw [e1]
    exact e2
  · have := s2.wf
    rwa [mr.1] at this
  · rw [hxr, show vb.x = _ from congrArg Prod.fst hx]

/-- **C42 (minibatches, lr_minibatch.go).** The same for training in minibatches, with at least one
ciphertext per batch: also `4 numIter` levels in total, whatever the number of ciphertexts. -/
theorem C42_minibatch (E : Setup prm n S rkSet rk s D T B) (H : Chain prm r K)
    {numIter : ℕ} (hL : 4 * numIter + 4 ≤ C.nQ) (hK : 15 * (3 ^ numIter - 1) + 6 ≤ K)
    {k : Consts (CCt C) (RQ C × ℚ)} {kx : Consts (Slots n ℂ) (Slots n ℂ)}
    (hk : ConstsRel (Fresh prm s S ε) (Encodes prm ε) k kx) (numRow numCol numFeature numBatch : ℕ)
    {numCt : ℕ} (hc : 1 ≤ numCt) {d : ℕ → ℕ → Data (CCt C) (RQ C × ℚ)}
    {dx : ℕ → ℕ → Data (Slots n ℂ) (Slots n ℂ)}
    (hd : ∀ b i, DataRel (Fresh prm s S ε) (Encodes prm ε) (d b i) (dx b i))
    {zero : ℕ → CCt C × CCt C}
    (hz : ∀ a, Fresh prm s S ε (zero a).1 (0 : Slots n ℂ) ∧ Fresh prm s S ε (zero a).2 (0 : Slots n ℂ))
    {beta v test : CCt C} {xb xv xt : Slots n ℂ} (hb : Fresh prm s S ε beta xb)
    (hv : Fresh prm s S ε v xv) (ht : Fresh prm s S ε test xt) (sch : ℕ → Sched) {m : Mach C}
    (hm : m.Ok S rk) :
    ∃ beta' v' m₁ out m₂ vb vv vr,
      mbTrain (realHE prm rkSet sch) k numRow numCol numBatch numCt d zero numIter beta v m =
        .ok ((beta', v'), m₁) ∧
      infer (realHE prm rkSet sch) k numFeature test beta' m₁ = .ok (out, m₂) ∧
      m₁.Ok S rk ∧ m₂.Ok S rk ∧
      beta'.ct.Wf (C.nQ - 1 - 4 * numIter) false ∧ v'.ct.Wf (C.nQ - 1 - 4 * numIter) false ∧
      out.ct.Wf (C.nQ - 1 - 4 * numIter - 3) false ∧
      mbTrainVal prm n S.card D T B ε kx numRow numCol numBatch numCt dx numIter xb xv =
        some (vb, vv) ∧
      inferVal prm n S.card D T B ε kx numFeature xt vb = some vr ∧
      Shows s S beta' vb ∧ Shows s S v' vv ∧ Shows s S out vr ∧
      (vb.x, vv.x) = (mbTrain (slotsHE n ℂ) kx numRow numCol numBatch numCt dx (fun _ => (0, 0))
        numIter xb xv : Id _) ∧
      vr.x = (infer (slotsHE n ℂ) kx numFeature xt vb.x : Id _) := by
  obtain ⟨vb, vv, e, m1, m2, hx⟩ := mbTrainVal_spec H E.good E.fl S.card D T B ε kx numRow numCol
    numBatch hc dx (numIter := numIter) (by omega) (by unfold kAfter; omega) xb xv
  obtain ⟨vr, er, mr, hxr⟩ := inferVal_spec H E.good E.fl S.card D T B ε kx numFeature xt m1
    (by omega) (by unfold kAfter; omega)
  obtain ⟨⟨b', v'⟩, m', e1, hm', s1, s1'⟩ := mbTrain_sim (realHE_sim E sch) (constsShow hk) numRow
    numCol numBatch numCt (fun b i => dataShow (hd b i))
    (z₂ := fun _ => (freshVal prm ε 0, freshVal prm ε 0)) (fun a => ⟨(hz a).1, (hz a).2⟩) numIter
    hb hv _ e m hm
  obtain ⟨out, m'', e2, hm'', s2⟩ := infer_sim (realHE_sim E sch) (constsShow hk) numFeature ht s1 _
    er m' hm'
  have w1 := s1.wf
  have w2 := s1'.wf
  have w3 := s2.wf
  rw [m1.1] at w1
  rw [m2.1] at w2
  rw [mr.1] at w3
  exact ⟨b', v', m', out, m'', vb, vv, vr, e1, e2, hm', hm'', w1, w2, w3, e, er, s1, s1', s2, hx, hxr⟩

end MK.Lr
