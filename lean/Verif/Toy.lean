import Verif.MbMain
import Mathlib.Analysis.Real.Sqrt

/-!
# `main` of lr/lr_toy.go (75-449) and lr/lr_minibatch_toy.go (77-493), from the parsed data on

The toy programs normalise the columns of the data first.  lr_toy.go otherwise follows lr.go but
decrypts the data ciphertext once and nothing during training; lr_minibatch_toy.go follows
lr_minibatch.go but classifies every record at the end.
-/

noncomputable section

namespace MK.Lr

open Word (idx upd)

variable {C : Ctx}

/-! ## Normalisation -/

/-- `real(featureData[i][j])` -/
def realAt (data : List (List ℂ)) (i j : ℕ) : Go ℝ := do
  let row ← idx data i
  let x ← idx row j
  return x.re

open Classical in
/-- Rounding to float64 on the reals that stand for float64 computations: these are rational.  (Other
numbers do not occur and are left as they are.) -/
def _root_.MK.Fl.re (F : Fl) (x : ℝ) : ℝ := if h : ∃ q : ℚ, x = q then F.rnd h.choose else x

/-- `mean[j]` and `std[j]` (lr/lr_toy.go 133-142, lr/lr_minibatch_toy.go 137-146).  `pop` is `batchSize`
or `numTrain`; `den`, the divisor under the root, is `batchSize` or `numTrain - 1` (exact in float64 below
`2^53`).  Every operation rounds.  `sq` is `math.Sqrt`; `math.Pow(x, 2)` multiplies the mantissa of `x` with
itself once and is the rounded square. -/
def meanStd (F : Fl) (sq : ℝ → ℝ) (data : List (List ℂ)) (pop : ℕ) (den : ℝ) (j : ℕ) : Go (ℝ × ℝ) := do
  let sum ← forN pop (fun i s => do
    let x ← realAt data i j
    return F.re (s + x)) 0
  let mean := F.re (sum / pop)
  let sum2 ← forN pop (fun i s => do
    let x ← realAt data i j
    return F.re (s + F.re (F.re (x - mean) ^ 2))) 0
  return (mean, sq (F.re (sum2 / den)))

/-- The columns that are normalised (lr/lr_toy.go 147, lr/lr_minibatch_toy.go 151). -/
def toySel (j : ℕ) : Bool := j ≠ 1 ∧ j ≠ 3 ∧ j ≠ 5 ∧ j < 17

/-- The normalisation (lr/lr_toy.go 129-152, lr/lr_minibatch_toy.go 133-156).  Go's division by a zero
`std[j]` gives NaN or an infinity, which the reals do not have: theorems about the quotients assume
that it is not zero. -/
def normalise (F : Fl) (sq : ℝ → ℝ) (pop : ℕ) (den : ℝ) (numFeature numData : ℕ) (sel : ℕ → Bool)
    (data : List (List ℂ)) : Go (List (List ℂ)) := do
  let (_, ms) ← tabulate numFeature (fun j _ => do
    let m ← meanStd F sq data pop den j
    return ((), m)) ()
  forN numData (fun i data => forN numFeature (fun j data => do
    if sel j then
      let row ← idx data i
      let x ← idx row j
      let (mean, std) ← idx ms j
      upd data i (row.set j (F.re (F.re (x.re - mean) / std) : ℂ))
    else return data) data) data

/-! ## lr_toy.go -/

/-- `x[a:b]`; the slices that occur have no spare capacity. -/
def slice (l : List ℂ) (a b : ℕ) : Go (List ℂ) :=
  if a ≤ b ∧ b ≤ l.length then .ok ((l.take b).drop a) else .error .indexRange

/-- What a run prints: the five slices of `z_decrypt.Value` and `correct`; `result` is `result.Value`. -/
structure ToyOut where
  zPrints : List (List ℂ)
  result : List ℂ
  correct : ℕ

/-- The slices that lr/lr_toy.go 171-179 prints. -/
def toySlices : List (ℕ × ℕ) := [(0, 4), (5, 9), (10, 14), (15, 19), (200, 210)]

/-- `main` of lr/lr_toy.go (75-449). -/
def lrToyMain (E : Encoder C (List ℂ)) (prm0 : CPar C) (sq : ℝ → ℝ) (logN : ℕ) (cfg : MainCfg)
    (rnd : MainRand C) (featureData : List (List ℂ)) (labelData : List ℂ) : Go ToyOut := do
  let labelData ← relabel cfg.isCls cfg.numData labelData
  let idset ← IDSet.addAll IDSet.new (companies cfg.numCompany)
  let (crs, kb) ← genTestParams logN (newCRS logN rnd.sample) rnd.sample' rnd.party
    (rnd.ids.f 0 (GoMap.keys idset))
  let prm := { prm0 with crs := crs }
  let enc := CEnc.new prm
  let pk ← kb.pkSet.get "company0"
  let (enc, beta) ← enc.EncryptMsgNew E prm (rnd.enc 0) (List.replicate cfg.slotNum 0) pk
  let (enc, v) ← enc.EncryptMsgNew E prm (rnd.enc 1) (List.replicate cfg.slotNum 0) pk
  let featureData ← normalise prm.fl sq cfg.hp.batchSize cfg.hp.batchSize cfg.numFeature cfg.numData
    toySel featureData
  let zVec ← packZ cfg.slotNum cfg.numCol cfg.numFeature cfg.hp.batchSize featureData
  let (enc, z) ← enc.EncryptMsgNewExpand E prm (rnd.enc 2) zVec pk (rnd.ids.f 1 (GoMap.keys idset))
  let (dec, zDecrypt) ← (CDec.new prm).Decrypt E z kb.skSet (rnd.dec 0)
  let zPrints ← toySlices.mapM fun ab => slice zDecrypt ab.1 ab.2
  let label ← packLabel cfg.slotNum cfg.numCol cfg.hp.batchSize labelData
  let (enc, c5) ← enc.EncryptMsgNew E prm (rnd.enc 3) (fconst5 prm.fl cfg.hp cfg.slotNum) pk
  let (enc, c9) ← enc.EncryptMsgNew E prm (rnd.enc 4) (fconst9 prm.fl cfg.hp cfg.slotNum) pk
  let k := mainConsts E prm cfg.hp cfg.slotNum cfg.numCol c5 c9
  let d := mainData E prm cfg.hp z label
  let ((beta, _), mach) ← lrTrain (realHE prm kb.rtkSet rnd.sch) k cfg.numRow cfg.numCol d cfg.numIter
    beta v ⟨Ev.new, kb.rlkSet, 0, []⟩
  let row ← idx featureData cfg.testId
  let testVec ← packTest cfg.slotNum cfg.numFeature row
  let (_, test) ← enc.EncryptMsgNewExpand E prm (rnd.enc 5) testVec pk
    (rnd.ids.f 2 (GoMap.keys idset))
  let (sigmoid, _) ← infer (realHE prm kb.rtkSet rnd.sch) k cfg.numFeature test beta mach
  let (_, result) ← dec.Decrypt E sigmoid kb.skSet (rnd.dec 1)
  let r0 ← idx result 0
  let y ← idx labelData cfg.testId
  return ⟨zPrints, result, judge r0 y⟩

/-! ## lr_minibatch_toy.go -/

/-- `int(x)`: Go truncates towards zero (the labels that occur are small). -/
def goInt (x : ℝ) : ℤ := if 0 ≤ x then ⌊x⌋ else ⌈x⌉

/-- The variables of the inference loop. -/
structure InferSt (C : Ctx) where
  mach : Mach C
  dec : CDec C
  enc : CEnc C
  results : List (List ℂ)
  correct : ℕ

/-- The body of the inference loop (lr/lr_minibatch_toy.go 396-436); the results are kept. -/
def inferStep (E : Encoder C (List ℂ)) (prm : CPar C) (kb : KeyBag C) (sch dsch : ℕ → Sched)
    (rnd : ℕ → EncRand C) (ids : ℕ → List String) (pk : PublicKey C)
    (k : Consts (CCt C) (RQ C × ℚ)) (numSlots numFeature : ℕ) (featureData : List (List ℂ))
    (labelData : List ℂ) (beta : CCt C) (i : ℕ) (st : InferSt C) : Go (InferSt C) := do
  let row ← idx featureData i
  let testVec ← packTest numSlots numFeature row
  let (enc, test) ← st.enc.EncryptMsgNewExpand E prm (rnd i) testVec pk (ids i)
  let (sigmoid, mach) ← infer (realHE prm kb.rtkSet sch) k numFeature test beta st.mach
  let (dec, result) ← st.dec.Decrypt E sigmoid kb.skSet (dsch i)
  let r0 ← idx result 0
  let y ← idx labelData i
  return ⟨mach, dec, enc, st.results ++ [result], st.correct + judge r0 y⟩

/-- What a run prints: `beta_decrypt.Value[0:2]` and `v_decrypt.Value[0:2]` of every iteration, and
`correct`; `results` are the `result.Value`. -/
structure MbToyOut where
  prints : List (List ℂ × List ℂ)
  results : List (List ℂ)
  correct : ℕ

/-- `main` of lr/lr_minibatch_toy.go (77-493).  `cfg.numIter` is the literal `3` of its training loop;
`cfg.testId` is not used (the part that checks one record is commented out).  Encryptions draw
`rnd.enc`: 0, 1 for `beta`, `v`, 2, 3 for the constants, then the data, the zeros of the iterations and the
records of the inference loop. -/
def mbToyMain (E : Encoder C (List ℂ)) (prm0 : CPar C) (sq : ℝ → ℝ) (logN : ℕ) (cfg : MbCfg)
    (rnd : MainRand C) (featureData : List (List ℂ)) (labelData : List ℂ) : Go MbToyOut := do
  let s := cfg.shape
  let labelData ← relabel cfg.isCls cfg.numData labelData
  let idset ← IDSet.addAll IDSet.new (companies cfg.numCompany)
  let (crs, kb) ← genTestParams logN (newCRS logN rnd.sample) rnd.sample' rnd.party
    (rnd.ids.f 0 (GoMap.keys idset))
  let prm := { prm0 with crs := crs }
  let enc := CEnc.new prm
  let pk ← kb.pkSet.get "company0"
  let (enc, beta) ← enc.EncryptMsgNew E prm (rnd.enc 0) (List.replicate cfg.numSlots 0) pk
  let (enc, v) ← enc.EncryptMsgNew E prm (rnd.enc 1) (List.replicate cfg.numSlots 0) pk
  let featureData ← normalise prm.fl sq cfg.numTrain (cfg.numTrain - 1) cfg.numFeature cfg.numData
    toySel featureData
  let (enc, z) ← encryptZ E prm s (fun b i => rnd.enc (4 + b * s.numCtPerBatch + i))
    (fun b i => rnd.ids.f (1 + b * s.numCtPerBatch + i) (GoMap.keys idset)) pk featureData enc
  let label ← labelVectors s labelData
  let (enc, c5) ← enc.EncryptMsgNew E prm (rnd.enc 2) (fconst5 prm.fl cfg.hp cfg.numSlots) pk
  let (enc, c9) ← enc.EncryptMsgNew E prm (rnd.enc 3) (fconst9 prm.fl cfg.hp cfg.numSlots) pk
  let k := mainConsts E prm cfg.hp cfg.numSlots cfg.maskW c5 c9
  let d := fun b i => mainData E prm cfg.hp (at2 beta z b i) (at2 [] label b i)
  let st ← forUp cfg.numIter (mbStep E prm kb rnd.sch rnd.dec
      (fun t => rnd.enc (4 + s.numBatch * s.numCtPerBatch + t)) pk k s d)
    ⟨beta, v, ⟨Ev.new, kb.rlkSet, 0, []⟩, CDec.new prm, enc, []⟩
  let it ← forUp cfg.numData (inferStep E prm kb rnd.sch (fun i => rnd.dec (2 * cfg.numIter + i))
      (fun i => rnd.enc (4 + s.numBatch * s.numCtPerBatch + 2 * cfg.numIter + i))
      (fun i => rnd.ids.f (1 + s.numBatch * s.numCtPerBatch + i) (GoMap.keys idset)) pk k cfg.numSlots
      cfg.numFeature featureData labelData st.beta)
    ⟨st.mach, st.dec, st.enc, [], 0⟩
  return ⟨st.prints, it.results, it.correct⟩

end MK.Lr
