import Verif.HeapClient
import Verif.Toy

/-!
# The programs of `lr/` on pointers

`memHE` implements the operations of the programs on the memory of `Verif.Heap`: a ciphertext is a
pointer, and whether the operands of `MulRelinNew` are the same object is decided by comparing
pointers.  The main functions are those of `Verif/LrMain.lean`, `Verif/MbMain.lean` and
`Verif/Toy.lean`, with encryptor, evaluator and decryptor working on the memory.
-/

noncomputable section

namespace MK.Lr

open Word (idx upd)
open Mem (lift)

variable {C : Ctx}

/-- `Mach` with the evaluator's pools in the memory. -/
structure PMach (C : Ctx) where
  ev : HEv C
  rlk : RlkSet C
  tick : ℕ
  prods : List (ℕ × ℕ)

/-- `Level()` of a `mkckks.Ciphertext`. -/
def ptrLevel (x : ℕ) : HM C ℕ := do
  let a ← Mem.ctOf x
  Mem.level a

/-- The operations on the memory: `MulRelinNew` (mkckks/evaluator.go 416-443), `MulPtxtNew`
(465-481), `AddNew` (322-326), `RotateNew` (485-489).  The flag of `mulRelin` is not used: the
function compares the pointers. -/
def memHE (prm : CPar C) (rkSet : RotationKeySet (RotKey C)) (sch : ℕ → Sched) :
    HE (StateT (PMach C) (HM C)) ℕ (RQ C × ℚ) where
  mulRelin _ a b := fun m => do
    let (ev, rlk, r) ← Mem.MulRelinNew prm m.ev a b m.rlk (sch m.tick)
    let la ← ptrLevel a
    let lb ← ptrLevel b
    let l ← ptrLevel r
    return (r, ⟨ev, rlk, m.tick + 1, m.prods ++ [(min la lb, l)]⟩)
  mulPtxt a p := fun m => do
    let (ev, r) ← Mem.MulPtxtNew prm m.ev a p.1 p.2 (sch m.tick)
    let la ← ptrLevel a
    let l ← ptrLevel r
    return (r, ⟨ev, m.rlk, m.tick + 1, m.prods ++ [(la, l)]⟩)
  add a b := fun m => do
    let (ev, r) ← Mem.AddNew prm m.ev a b (sch m.tick)
    return (r, ⟨ev, m.rlk, m.tick + 1, m.prods⟩)
  rotate a k := fun m => do
    let (ev, r) ← Mem.RotateNew prm m.ev a k rkSet (sch m.tick)
    return (r, ⟨ev, m.rlk, m.tick + 1, m.prods⟩)

namespace Mem

/-- The plaintext constants (lr/lr.go 154-242); `c5`, `c9` are pointers. -/
def mainConsts (E : Encoder C (List ℂ)) (prm : CPar C) (p : Hyper ℂ) (slotNum numCol : ℕ)
    (c5 c9 : ℕ) : Consts ℕ (RQ C × ℚ) where
  mask := EncodeMsgNew E prm (maskVec slotNum numCol)
  c3 := EncodeMsgNew E prm (fconst3 prm.fl p slotNum)
  c4 iter := EncodeMsgNew E prm (fconst4 prm.fl p slotNum iter)
  c5 := c5
  c6 iter := EncodeMsgNew E prm (fconst6 prm.fl p slotNum iter)
  c7 iter := EncodeMsgNew E prm (fconst7 prm.fl p slotNum iter)
  c8 := EncodeMsgNew E prm (fconst8 prm.fl p slotNum)
  c9 := c9

/-- The data ciphertext and the constants made from the labels (lr/lr.go 143, 171-186). -/
def mainData (E : Encoder C (List ℂ)) (prm : CPar C) (p : Hyper ℂ) (z : ℕ)
    (label : List ℂ) : Data ℕ (RQ C × ℚ) where
  z := z
  k1 := EncodeMsgNew E prm (fconst1 prm.fl p label)
  k2 iter := EncodeMsgNew E prm (fconst2 prm.fl p label iter)

/-- The variables of the training loop. -/
structure TrainSt (C : Ctx) where
  beta : ℕ
  v : ℕ
  mach : PMach C
  dec : CDec C
  prints : List (List ℂ × List ℂ)

/-- The body of the training loop with its two decryptions (lr/lr.go 247-314). -/
def trainStep (E : Encoder C (List ℂ)) (prm : CPar C) (kb : KeyBag C) (sch dsch : ℕ → Sched)
    (k : Consts ℕ (RQ C × ℚ)) (numRow numCol : ℕ) (d : Data ℕ (RQ C × ℚ)) (a : ℕ)
    (st : TrainSt C) : HM C (TrainSt C) := do
  let ((beta, v), mach) ←
    lrIter (memHE prm kb.rtkSet sch) k numRow numCol d a (st.beta, st.v) st.mach
  let (dec, betaDecrypt) ← MK.Mem.Decrypt E st.dec beta kb.skSet (dsch (2 * a))
  let betaPrint ← lift (slice02 betaDecrypt)
  let (dec, vDecrypt) ← MK.Mem.Decrypt E dec v kb.skSet (dsch (2 * a + 1))
  let vPrint ← lift (slice02 vDecrypt)
  return ⟨beta, v, mach, dec, st.prints ++ [(betaPrint, vPrint)]⟩

/-- `main` of lr/lr.go (75-422) on the memory. -/
def lrMain (E : Encoder C (List ℂ)) (prm0 : CPar C) (logN : ℕ) (cfg : MainCfg) (rnd : MainRand C)
    (featureData : List (List ℂ)) (labelData : List ℂ) : HM C MainOut := do
  let labelData ← lift (relabel cfg.isCls cfg.numData labelData)
  let idset ← lift (IDSet.addAll IDSet.new (companies cfg.numCompany))
  let (crs, kb) ← lift (genTestParams logN (newCRS logN rnd.sample) rnd.sample' rnd.party
    (rnd.ids.f 0 (GoMap.keys idset)))
  let prm := { prm0 with crs := crs }
  let ev ← MK.Mem.newEvaluator
  let enc := CEnc.new prm
  let pk ← lift (kb.pkSet.get "company0")
  let (enc, beta) ← MK.Mem.EncryptMsgNew E prm enc (rnd.enc 0) (List.replicate cfg.slotNum 0) pk
  let (enc, v) ← MK.Mem.EncryptMsgNew E prm enc (rnd.enc 1) (List.replicate cfg.slotNum 0) pk
  let zVec ← lift (packZ cfg.slotNum cfg.numCol cfg.numFeature cfg.hp.batchSize featureData)
  let (enc, z) ← MK.Mem.EncryptMsgNewExpand E prm enc (rnd.enc 2) zVec pk
    (rnd.ids.f 1 (GoMap.keys idset))
  let label ← lift (packLabel cfg.slotNum cfg.numCol cfg.hp.batchSize labelData)
  let (enc, c5) ← MK.Mem.EncryptMsgNew E prm enc (rnd.enc 3) (fconst5 prm.fl cfg.hp cfg.slotNum) pk
  let (enc, c9) ← MK.Mem.EncryptMsgNew E prm enc (rnd.enc 4) (fconst9 prm.fl cfg.hp cfg.slotNum) pk
  let k := mainConsts E prm cfg.hp cfg.slotNum cfg.numCol c5 c9
  let d := mainData E prm cfg.hp z label
  let st ← forUp cfg.numIter (trainStep E prm kb rnd.sch rnd.dec k cfg.numRow cfg.numCol d)
    ⟨beta, v, ⟨ev, kb.rlkSet, 0, []⟩, CDec.new prm, []⟩
  let row ← lift (idx featureData cfg.testId)
  let testVec ← lift (packTest cfg.slotNum cfg.numFeature row)
  let (_, test) ← MK.Mem.EncryptMsgNewExpand E prm enc (rnd.enc 5) testVec pk
    (rnd.ids.f 2 (GoMap.keys idset))
  let (sigmoid, _) ← infer (memHE prm kb.rtkSet rnd.sch) k cfg.numFeature test st.beta st.mach
  let (_, result) ← MK.Mem.Decrypt E st.dec sigmoid kb.skSet (rnd.dec (2 * cfg.numIter))
  let r0 ← lift (idx result 0)
  let y ← lift (idx labelData cfg.testId)
  return ⟨st.prints, result, judge r0 y⟩

/-- `main` of lr/lr_toy.go (75-449) on the memory. -/
def lrToyMain (E : Encoder C (List ℂ)) (prm0 : CPar C) (sq : ℝ → ℝ) (logN : ℕ) (cfg : MainCfg)
    (rnd : MainRand C) (featureData : List (List ℂ)) (labelData : List ℂ) : HM C ToyOut := do
  let labelData ← lift (relabel cfg.isCls cfg.numData labelData)
  let idset ← lift (IDSet.addAll IDSet.new (companies cfg.numCompany))
  let (crs, kb) ← lift (genTestParams logN (newCRS logN rnd.sample) rnd.sample' rnd.party
    (rnd.ids.f 0 (GoMap.keys idset)))
  let prm := { prm0 with crs := crs }
  let ev ← MK.Mem.newEvaluator
  let enc := CEnc.new prm
  let pk ← lift (kb.pkSet.get "company0")
  let (enc, beta) ← MK.Mem.EncryptMsgNew E prm enc (rnd.enc 0) (List.replicate cfg.slotNum 0) pk
  let (enc, v) ← MK.Mem.EncryptMsgNew E prm enc (rnd.enc 1) (List.replicate cfg.slotNum 0) pk
  let featureData ← lift (normalise prm.fl sq cfg.hp.batchSize cfg.hp.batchSize cfg.numFeature
    cfg.numData toySel featureData)
  let zVec ← lift (packZ cfg.slotNum cfg.numCol cfg.numFeature cfg.hp.batchSize featureData)
  let (enc, z) ← MK.Mem.EncryptMsgNewExpand E prm enc (rnd.enc 2) zVec pk
    (rnd.ids.f 1 (GoMap.keys idset))
  let (dec, zDecrypt) ← MK.Mem.Decrypt E (CDec.new prm) z kb.skSet (rnd.dec 0)
  let zPrints ← lift (toySlices.mapM fun ab => slice zDecrypt ab.1 ab.2)
  let label ← lift (packLabel cfg.slotNum cfg.numCol cfg.hp.batchSize labelData)
  let (enc, c5) ← MK.Mem.EncryptMsgNew E prm enc (rnd.enc 3) (fconst5 prm.fl cfg.hp cfg.slotNum) pk
  let (enc, c9) ← MK.Mem.EncryptMsgNew E prm enc (rnd.enc 4) (fconst9 prm.fl cfg.hp cfg.slotNum) pk
  let k := mainConsts E prm cfg.hp cfg.slotNum cfg.numCol c5 c9
  let d := mainData E prm cfg.hp z label
  let ((beta, _), mach) ← lrTrain (memHE prm kb.rtkSet rnd.sch) k cfg.numRow cfg.numCol d cfg.numIter
    beta v ⟨ev, kb.rlkSet, 0, []⟩
  let row ← lift (idx featureData cfg.testId)
  let testVec ← lift (packTest cfg.slotNum cfg.numFeature row)
  let (_, test) ← MK.Mem.EncryptMsgNewExpand E prm enc (rnd.enc 5) testVec pk
    (rnd.ids.f 2 (GoMap.keys idset))
  let (sigmoid, _) ← infer (memHE prm kb.rtkSet rnd.sch) k cfg.numFeature test beta mach
  let (_, result) ← MK.Mem.Decrypt E dec sigmoid kb.skSet (rnd.dec 1)
  let r0 ← lift (idx result 0)
  let y ← lift (idx labelData cfg.testId)
  return ⟨zPrints, result, judge r0 y⟩

/-! ## Minibatches -/

/-- `tabulate` on the memory. -/
def tabulate {σ α : Type} (n : ℕ) (f : ℕ → σ → HM C (σ × α)) (s : σ) : HM C (σ × List α) :=
  forUp n (fun i st => do
    let (s, x) ← f i st.1
    return (s, st.2 ++ [x])) (s, [])

/-- Packing and encrypting the data (lr/lr_minibatch.go 140-163). -/
def encryptZ (E : Encoder C (List ℂ)) (prm : CPar C) (s : Shape) (rnd : ℕ → ℕ → EncRand C)
    (ids : ℕ → ℕ → List String) (pk : PublicKey C) (data : List (List ℂ)) (enc : CEnc C) :
    HM C (CEnc C × List (List ℕ)) :=
  tabulate s.numBatch (fun b => tabulate s.numCtPerBatch fun i enc => do
    let z ← lift (packBatchZ s data b i)
    MK.Mem.EncryptMsgNewExpand E prm enc (rnd b i) z pk (ids b i)) enc

/-- The variables of the training loop, with the encryptor. -/
structure MbSt (C : Ctx) where
  beta : ℕ
  v : ℕ
  mach : PMach C
  dec : CDec C
  enc : CEnc C
  prints : List (List ℂ × List ℂ)

/-- The body of the training loop (lr/lr_minibatch.go 284-358). -/
def mbStep (E : Encoder C (List ℂ)) (prm : CPar C) (kb : KeyBag C) (sch dsch : ℕ → Sched)
    (rnd : ℕ → EncRand C) (pk : PublicKey C) (k : Consts ℕ (RQ C × ℚ)) (s : Shape)
    (d : ℕ → ℕ → Data ℕ (RQ C × ℚ)) (a : ℕ) (st : MbSt C) : HM C (MbSt C) := do
  if s.numBatch = 0 then lift (.error (.msg "integer divide by zero"))
  let (enc, g0) ← MK.Mem.EncryptMsgNew E prm st.enc (rnd (2 * a)) (List.replicate s.numSlots 0) pk
  let (enc, u0) ← MK.Mem.EncryptMsgNew E prm enc (rnd (2 * a + 1)) (List.replicate s.numSlots 0) pk
  let ((beta, v), mach) ← mbIter (memHE prm kb.rtkSet sch) k s.numDataPerCt s.slotsPerData s.numBatch
    s.numCtPerBatch d (fun _ => (g0, u0)) a (st.beta, st.v) st.mach
  let (dec, betaDecrypt) ← MK.Mem.Decrypt E st.dec beta kb.skSet (dsch (2 * a))
  let betaPrint ← lift (slice02 betaDecrypt)
  let (dec, vDecrypt) ← MK.Mem.Decrypt E dec v kb.skSet (dsch (2 * a + 1))
  let vPrint ← lift (slice02 vDecrypt)
  return ⟨beta, v, mach, dec, enc, st.prints ++ [(betaPrint, vPrint)]⟩

/-- `main` of lr/lr_minibatch.go (75-465) on the memory. -/
def mbMain (E : Encoder C (List ℂ)) (prm0 : CPar C) (logN : ℕ) (cfg : MbCfg) (rnd : MainRand C)
    (featureData : List (List ℂ)) (labelData : List ℂ) : HM C MainOut := do
  let s := cfg.shape
  let labelData ← lift (relabel cfg.isCls cfg.numData labelData)
  let idset ← lift (IDSet.addAll IDSet.new (companies cfg.numCompany))
  let (crs, kb) ← lift (genTestParams logN (newCRS logN rnd.sample) rnd.sample' rnd.party
    (rnd.ids.f 0 (GoMap.keys idset)))
  let prm := { prm0 with crs := crs }
  let ev ← MK.Mem.newEvaluator
  let enc := CEnc.new prm
  let pk ← lift (kb.pkSet.get "company0")
  let (enc, beta) ← MK.Mem.EncryptMsgNew E prm enc (rnd.enc 0) (List.replicate cfg.numSlots 0) pk
  let (enc, v) ← MK.Mem.EncryptMsgNew E prm enc (rnd.enc 1) (List.replicate cfg.numSlots 0) pk
  let (enc, z) ← encryptZ E prm s (fun b i => rnd.enc (5 + b * s.numCtPerBatch + i))
    (fun b i => rnd.ids.f (2 + b * s.numCtPerBatch + i) (GoMap.keys idset)) pk featureData enc
  let label ← lift (labelVectors s labelData)
  let (enc, c5) ← MK.Mem.EncryptMsgNew E prm enc (rnd.enc 2) (fconst5 prm.fl cfg.hp cfg.numSlots) pk
  let (enc, c9) ← MK.Mem.EncryptMsgNew E prm enc (rnd.enc 3) (fconst9 prm.fl cfg.hp cfg.numSlots) pk
  let k := mainConsts E prm cfg.hp cfg.numSlots cfg.maskW c5 c9
  let d := fun b i => mainData E prm cfg.hp (at2 beta z b i) (at2 [] label b i)
  let st ← forUp cfg.numIter (mbStep E prm kb rnd.sch rnd.dec
      (fun t => rnd.enc (5 + s.numBatch * s.numCtPerBatch + t)) pk k s d)
    ⟨beta, v, ⟨ev, kb.rlkSet, 0, []⟩, CDec.new prm, enc, []⟩
  let row ← lift (idx featureData cfg.testId)
  let testVec ← lift (packTest cfg.numSlots cfg.numFeature row)
  let (_, test) ← MK.Mem.EncryptMsgNewExpand E prm st.enc (rnd.enc 4) testVec pk
    (rnd.ids.f 1 (GoMap.keys idset))
  let (sigmoid, _) ← infer (memHE prm kb.rtkSet rnd.sch) k cfg.numFeature test st.beta st.mach
  let (_, result) ← MK.Mem.Decrypt E st.dec sigmoid kb.skSet (rnd.dec (2 * cfg.numIter))
  let r0 ← lift (idx result 0)
  let y ← lift (idx labelData cfg.testId)
  return ⟨st.prints, result, judge r0 y⟩

/-- The variables of the inference loop. -/
structure InferSt (C : Ctx) where
  mach : PMach C
  dec : CDec C
  enc : CEnc C
  results : List (List ℂ)
  correct : ℕ

/-- The body of the inference loop (lr/lr_minibatch_toy.go 396-436). -/
def inferStep (E : Encoder C (List ℂ)) (prm : CPar C) (kb : KeyBag C) (sch dsch : ℕ → Sched)
    (rnd : ℕ → EncRand C) (ids : ℕ → List String) (pk : PublicKey C)
    (k : Consts ℕ (RQ C × ℚ)) (numSlots numFeature : ℕ) (featureData : List (List ℂ))
    (labelData : List ℂ) (beta : ℕ) (i : ℕ) (st : InferSt C) : HM C (InferSt C) := do
  let row ← lift (idx featureData i)
  let testVec ← lift (packTest numSlots numFeature row)
  let (enc, test) ← MK.Mem.EncryptMsgNewExpand E prm st.enc (rnd i) testVec pk (ids i)
  let (sigmoid, mach) ← infer (memHE prm kb.rtkSet sch) k numFeature test beta st.mach
  let (dec, result) ← MK.Mem.Decrypt E st.dec sigmoid kb.skSet (dsch i)
  let r0 ← lift (idx result 0)
  let y ← lift (idx labelData i)
  return ⟨mach, dec, enc, st.results ++ [result], st.correct + judge r0 y⟩

/-- `main` of lr/lr_minibatch_toy.go (77-493) on the memory. -/
def mbToyMain (E : Encoder C (List ℂ)) (prm0 : CPar C) (sq : ℝ → ℝ) (logN : ℕ) (cfg : MbCfg)
    (rnd : MainRand C) (featureData : List (List ℂ)) (labelData : List ℂ) : HM C MbToyOut := do
  let s := cfg.shape
  let labelData ← lift (relabel cfg.isCls cfg.numData labelData)
  let idset ← lift (IDSet.addAll IDSet.new (companies cfg.numCompany))
  let (crs, kb) ← lift (genTestParams logN (newCRS logN rnd.sample) rnd.sample' rnd.party
    (rnd.ids.f 0 (GoMap.keys idset)))
  let prm := { prm0 with crs := crs }
  let ev ← MK.Mem.newEvaluator
  let enc := CEnc.new prm
  let pk ← lift (kb.pkSet.get "company0")
  let (enc, beta) ← MK.Mem.EncryptMsgNew E prm enc (rnd.enc 0) (List.replicate cfg.numSlots 0) pk
  let (enc, v) ← MK.Mem.EncryptMsgNew E prm enc (rnd.enc 1) (List.replicate cfg.numSlots 0) pk
  let featureData ← lift (normalise prm.fl sq cfg.numTrain (cfg.numTrain - 1) cfg.numFeature
    cfg.numData toySel featureData)
  let (enc, z) ← encryptZ E prm s (fun b i => rnd.enc (4 + b * s.numCtPerBatch + i))
    (fun b i => rnd.ids.f (1 + b * s.numCtPerBatch + i) (GoMap.keys idset)) pk featureData enc
  let label ← lift (labelVectors s labelData)
  let (enc, c5) ← MK.Mem.EncryptMsgNew E prm enc (rnd.enc 2) (fconst5 prm.fl cfg.hp cfg.numSlots) pk
  let (enc, c9) ← MK.Mem.EncryptMsgNew E prm enc (rnd.enc 3) (fconst9 prm.fl cfg.hp cfg.numSlots) pk
  let k := mainConsts E prm cfg.hp cfg.numSlots cfg.maskW c5 c9
  let d := fun b i => mainData E prm cfg.hp (at2 beta z b i) (at2 [] label b i)
  let st ← forUp cfg.numIter (mbStep E prm kb rnd.sch rnd.dec
      (fun t => rnd.enc (4 + s.numBatch * s.numCtPerBatch + t)) pk k s d)
    ⟨beta, v, ⟨ev, kb.rlkSet, 0, []⟩, CDec.new prm, enc, []⟩
  let it ← forUp cfg.numData (inferStep E prm kb rnd.sch (fun i => rnd.dec (2 * cfg.numIter + i))
      (fun i => rnd.enc (4 + s.numBatch * s.numCtPerBatch + 2 * cfg.numIter + i))
      (fun i => rnd.ids.f (1 + s.numBatch * s.numCtPerBatch + i) (GoMap.keys idset)) pk k cfg.numSlots
      cfg.numFeature featureData labelData st.beta)
    ⟨st.mach, st.dec, st.enc, [], 0⟩
  return ⟨st.prints, it.results, it.correct⟩

end Mem

end MK.Lr
