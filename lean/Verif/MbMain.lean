import Verif.LrMain

/-!
# `main` of lr/lr_minibatch.go (75-465), from the parsed data on

As `Verif/LrMain.lean`, for training in minibatches: every batch is spread over one or more
ciphertexts, and each iteration starts from two fresh encryptions of zero.
-/

noncomputable section

namespace MK.Lr

open Word (idx upd)

variable {C : Ctx}

/-- The variables and literals of lr/lr_minibatch.go that `main` uses (21-43, 82, 184, 414): `maskW` is
the literal `2^3` of the mask, `isCls x` is `x == classification_label`, `testId` is `1950`; `hp.batchSize` is
`batchSize`. -/
structure MbCfg where
  hp : Hyper ℂ
  numSlots : ℕ
  numFeature : ℕ
  numTrain : ℕ
  maskW : ℕ
  numData : ℕ
  numIter : ℕ
  numCompany : ℕ
  testId : ℕ
  isCls : ℝ → Prop

/-- The batch parameters (lr/lr_minibatch.go 28, 129-137). -/
def MbCfg.shape (cfg : MbCfg) : Shape := ⟨cfg.numSlots, cfg.numFeature, cfg.numTrain, cfg.hp.batchSize⟩

/-- `x := make([]T, n)` and a loop that computes `x[i]` for `i = 0, …, n-1`, with further state `s`. -/
def tabulate {σ α : Type} (n : ℕ) (f : ℕ → σ → Go (σ × α)) (s : σ) : Go (σ × List α) :=
  forUp n (fun i st => do
    let (s, x) ← f i st.1
    return (s, st.2 ++ [x])) (s, [])

/-- `x[b][i]`; the indices that occur are in range (`b = a % numBatch`, `i < numCtPerBatch`). -/
def at2 {α : Type} (dflt : α) (x : List (List α)) (b i : ℕ) : α := (x.getD b []).getD i dflt

/-- Packing and encrypting the data (lr/lr_minibatch.go 140-163). -/
def encryptZ (E : Encoder C (List ℂ)) (prm : CPar C) (s : Shape) (rnd : ℕ → ℕ → EncRand C)
    (ids : ℕ → ℕ → List String) (pk : PublicKey C) (data : List (List ℂ)) (enc : CEnc C) :
    Go (CEnc C × List (List (CCt C))) :=
  tabulate s.numBatch (fun b => tabulate s.numCtPerBatch fun i enc => do
    let z ← packBatchZ s data b i
    enc.EncryptMsgNewExpand E prm (rnd b i) z pk (ids b i)) enc

/-- `label_vector` (lr/lr_minibatch.go 164-181). -/
def labelVectors (s : Shape) (labels : List ℂ) : Go (List (List (List ℂ))) := do
  let (_, l) ← tabulate s.numBatch (fun b => tabulate s.numCtPerBatch fun i _ => do
    let l ← packBatchLabel s labels b i
    return ((), l)) ()
  return l

/-- The variables of the training loop, with the encryptor. -/
structure MbSt (C : Ctx) where
  beta : CCt C
  v : CCt C
  mach : Mach C
  dec : CDec C
  enc : CEnc C
  prints : List (List ℂ × List ℂ)

/-- The body of the training loop (lr/lr_minibatch.go 284-358); `rnd (2 a)`, `rnd (2 a + 1)` are the
samples of its two encryptions of zero. -/
def mbStep (E : Encoder C (List ℂ)) (prm : CPar C) (kb : KeyBag C) (sch dsch : ℕ → Sched)
    (rnd : ℕ → EncRand C) (pk : PublicKey C) (k : Consts (CCt C) (RQ C × ℚ)) (s : Shape)
    (d : ℕ → ℕ → Data (CCt C) (RQ C × ℚ)) (a : ℕ) (st : MbSt C) : Go (MbSt C) := do
  if s.numBatch = 0 then .error (.msg "integer divide by zero")
  let (enc, g0) ← st.enc.EncryptMsgNew E prm (rnd (2 * a)) (List.replicate s.numSlots 0) pk
  let (enc, u0) ← enc.EncryptMsgNew E prm (rnd (2 * a + 1)) (List.replicate s.numSlots 0) pk
  let ((beta, v), mach) ← mbIter (realHE prm kb.rtkSet sch) k s.numDataPerCt s.slotsPerData s.numBatch
    s.numCtPerBatch d (fun _ => (g0, u0)) a (st.beta, st.v) st.mach
  let (dec, betaDecrypt) ← st.dec.Decrypt E beta kb.skSet (dsch (2 * a))
  let betaPrint ← slice02 betaDecrypt
  let (dec, vDecrypt) ← dec.Decrypt E v kb.skSet (dsch (2 * a + 1))
  let vPrint ← slice02 vDecrypt
  return ⟨beta, v, mach, dec, enc, st.prints ++ [(betaPrint, vPrint)]⟩

/-- `main` of lr/lr_minibatch.go (75-465).  The commented-out inference loop (363-410) is not part of
it.  Encryptions draw `rnd.enc`: 0, 1 for `beta`, `v`, 2, 3 for the constants, 4 for the test record, then the
data, then the zeros of the iterations. -/
def mbMain (E : Encoder C (List ℂ)) (prm0 : CPar C) (logN : ℕ) (cfg : MbCfg) (rnd : MainRand C)
    (featureData : List (List ℂ)) (labelData : List ℂ) : Go MainOut := do
  let s := cfg.shape
  let labelData ← relabel cfg.isCls cfg.numData labelData
  let idset ← IDSet.addAll IDSet.new (companies cfg.numCompany)
  let (crs, kb) ← genTestParams logN (newCRS logN rnd.sample) rnd.sample' rnd.party
    (rnd.ids.f 0 (GoMap.keys idset))
  let prm := { prm0 with crs := crs }
  let enc := CEnc.new prm
  let pk ← kb.pkSet.get "company0"
  let (enc, beta) ← enc.EncryptMsgNew E prm (rnd.enc 0) (List.replicate cfg.numSlots 0) pk
  let (enc, v) ← enc.EncryptMsgNew E prm (rnd.enc 1) (List.replicate cfg.numSlots 0) pk
  let (enc, z) ← encryptZ E prm s (fun b i => rnd.enc (5 + b * s.numCtPerBatch + i))
    (fun b i => rnd.ids.f (2 + b * s.numCtPerBatch + i) (GoMap.keys idset)) pk featureData enc
  let label ← labelVectors s labelData
  let (enc, c5) ← enc.EncryptMsgNew E prm (rnd.enc 2) (fconst5 prm.fl cfg.hp cfg.numSlots) pk
  let (enc, c9) ← enc.EncryptMsgNew E prm (rnd.enc 3) (fconst9 prm.fl cfg.hp cfg.numSlots) pk
  let k := mainConsts E prm cfg.hp cfg.numSlots cfg.maskW c5 c9
  let d := fun b i => mainData E prm cfg.hp (at2 beta z b i) (at2 [] label b i)
  let st ← forUp cfg.numIter (mbStep E prm kb rnd.sch rnd.dec
      (fun t => rnd.enc (5 + s.numBatch * s.numCtPerBatch + t)) pk k s d)
    ⟨beta, v, ⟨Ev.new, kb.rlkSet, 0, []⟩, CDec.new prm, enc, []⟩
  let row ← idx featureData cfg.testId
  let testVec ← packTest cfg.numSlots cfg.numFeature row
  let (_, test) ← st.enc.EncryptMsgNewExpand E prm (rnd.enc 4) testVec pk
    (rnd.ids.f 1 (GoMap.keys idset))
  let (sigmoid, _) ← infer (realHE prm kb.rtkSet rnd.sch) k cfg.numFeature test st.beta st.mach
  let (_, result) ← st.dec.Decrypt E sigmoid kb.skSet (rnd.dec (2 * cfg.numIter))
  let r0 ← idx result 0
  let y ← idx labelData cfg.testId
  return ⟨st.prints, result, judge r0 y⟩

end MK.Lr
