import Verif.LrSetup
import Verif.LrEval
import Mathlib.Analysis.Complex.Basic

/-!
# `main` of lr/lr.go (75-422), from the parsed data on

Everything between the parsed data (`readData`, modelled in `Verif/Utils.lean`) and the printed
results: keys, encryption, training with its printed decryptions, inference, decryption, and the
comparison with the label.  The data are complex numbers; the constants are computed in float64
(`Fl.cx`); lattigo's encoder is a parameter.  Timing and printing of fixed texts are left out.
-/

noncomputable section

namespace MK.Lr

open Word (idx upd)

variable {C : Ctx}

/-- The variables and literals of lr/lr.go that `main` uses (21-39, 82, 367): `numCol` is `2^3`,
`numRow` is `2^11`, `slotNum` is `2^14`, `isCls x` is `x == classification_label`, `testId` is `1935`. -/
structure MainCfg where
  hp : Hyper ℂ
  slotNum : ℕ
  numCol : ℕ
  numRow : ℕ
  numData : ℕ
  numFeature : ℕ
  numIter : ℕ
  numCompany : ℕ
  testId : ℕ
  isCls : ℝ → Prop

/-- What a run draws at random: the CRS vectors of `NewParameters` and of `AddCRS`, the samples of
every party's keys and of the `t`-th encryption; and the iteration orders Go chooses: over the id set,
in the `t`-th operation of the evaluator, in the `t`-th decryption. -/
structure MainRand (C : Ctx) where
  sample : ℤ → SwKey C
  sample' : ℤ → SwKey C
  party : String → PartyRand C
  enc : ℕ → EncRand C
  ids : Sched
  sch : ℕ → Sched
  dec : ℕ → Sched

/-- What a run prints: `beta_decrypt.Value[0:2]` and `v_decrypt.Value[0:2]` of every iteration, and
`correct`; `result` is `result.Value`. -/
structure MainOut where
  prints : List (List ℂ × List ℂ)
  result : List ℂ
  correct : ℕ

open Classical in
/-- The loop lr/lr.go 83-89. -/
def relabel (isCls : ℝ → Prop) (numData : ℕ) (labelData : List ℂ) : Go (List ℂ) :=
  forN numData (fun i l => do
    let y ← idx l i
    upd l i (if isCls y.re then 1 else 0)) labelData

/-- `companySet` (lr/lr.go 101-104) -/
def companies (numCompany : ℕ) : List String :=
  (List.range numCompany).map fun i => "company" ++ toString i

/-- `x[0:2]`; the slices that occur have no spare capacity. -/
def slice02 (l : List ℂ) : Go (List ℂ) := if 2 ≤ l.length then .ok (l.take 2) else .error .indexRange

/-- The variables of the training loop. -/
structure TrainSt (C : Ctx) where
  beta : CCt C
  v : CCt C
  mach : Mach C
  dec : CDec C
  prints : List (List ℂ × List ℂ)

/-- The body of the training loop with its two decryptions (lr/lr.go 247-314). -/
def trainStep (E : Encoder C (List ℂ)) (prm : CPar C) (kb : KeyBag C) (sch dsch : ℕ → Sched)
    (k : Consts (CCt C) (RQ C × ℚ)) (numRow numCol : ℕ) (d : Data (CCt C) (RQ C × ℚ)) (a : ℕ)
    (st : TrainSt C) : Go (TrainSt C) := do
  let ((beta, v), mach) ←
    lrIter (realHE prm kb.rtkSet sch) k numRow numCol d a (st.beta, st.v) st.mach
  let (dec, betaDecrypt) ← st.dec.Decrypt E beta kb.skSet (dsch (2 * a))
  let betaPrint ← slice02 betaDecrypt
  let (dec, vDecrypt) ← dec.Decrypt E v kb.skSet (dsch (2 * a + 1))
  let vPrint ← slice02 vDecrypt
  return ⟨beta, v, mach, dec, st.prints ++ [(betaPrint, vPrint)]⟩

open Classical in
/-- The comparison lr/lr.go 412-416.  (Exactly one of the two branches reads the label, whatever
the result.) -/
def judge (result : ℂ) (label : ℂ) : ℕ :=
  if 1 / 2 ≤ result.re ∧ label.re = 1 then 1
  else if result.re < 1 / 2 ∧ label.re = 0 then 1 else 0

open Classical in
/-- Rounding to float64 on the complex numbers that stand for float64 computations: these are rational.
(Other numbers do not occur and are left as they are.) -/
def _root_.MK.Fl.cx (F : Fl) (z : ℂ) : ℂ := if h : ∃ q : ℚ, z = q then F.rnd h.choose else z

/-! The constants as `main` computes them.  The literals of the hyperparameters are rounded when they
are stored in float64 variables, and every operation rounds.  (`float64(batchSize)` is exact below
`2^53`.) -/

/-- `const1_pt` (lr/lr.go 171-176) -/
def fconst1 (F : Fl) (p : Hyper ℂ) (label : List ℂ) : List ℂ :=
  label.map fun y => F.cx (F.cx (-F.cx p.gamma / p.batchSize) * F.cx (F.cx p.c0 - (y.re : ℂ)))

/-- `const2_pt[iter]` (lr/lr.go 178-186) -/
def fconst2 (F : Fl) (p : Hyper ℂ) (label : List ℂ) (iter : ℕ) : List ℂ :=
  label.map fun y => F.cx (F.cx (F.cx (-F.cx (1 - F.cx (p.eta iter)) * F.cx p.gamma) / p.batchSize) *
    F.cx (F.cx p.c0 - (y.re : ℂ)))

/-- `const3_pt` (lr/lr.go 188-193) -/
def fconst3 (F : Fl) (p : Hyper ℂ) (slotNum : ℕ) : List ℂ :=
  List.replicate slotNum (F.cx (F.cx (-F.cx p.gamma / p.batchSize) * F.cx p.c3))

/-- `const4_pt[iter]` (lr/lr.go 195-203) -/
def fconst4 (F : Fl) (p : Hyper ℂ) (slotNum iter : ℕ) : List ℂ :=
  List.replicate slotNum (F.cx (F.cx (F.cx (-F.cx (1 - F.cx (p.eta iter)) * F.cx p.gamma) /
    p.batchSize) * F.cx p.c3))

/-- `const5_ct` (lr/lr.go 205-210) -/
def fconst5 (F : Fl) (p : Hyper ℂ) (slotNum : ℕ) : List ℂ :=
  List.replicate slotNum (F.cx (F.cx p.c1 / F.cx p.c3))

/-- `const6_pt[iter]` (lr/lr.go 212-219).  `const_msg.Value` still refers to `const_vector`, so
the missing assignment has no effect. -/
def fconst6 (F : Fl) (p : Hyper ℂ) (slotNum iter : ℕ) : List ℂ :=
  List.replicate slotNum (F.cx (1 - F.cx (p.eta iter)))

/-- `const7_pt[iter]` (lr/lr.go 220-227) -/
def fconst7 (F : Fl) (p : Hyper ℂ) (slotNum iter : ℕ) : List ℂ :=
  List.replicate slotNum (F.cx (p.eta iter))

/-- `const8_pt` (lr/lr.go 229-234) -/
def fconst8 (F : Fl) (p : Hyper ℂ) (slotNum : ℕ) : List ℂ := List.replicate slotNum (F.cx p.c3)

/-- `const9_ct` (lr/lr.go 236-241) -/
def fconst9 (F : Fl) (p : Hyper ℂ) (slotNum : ℕ) : List ℂ := List.replicate slotNum (F.cx p.c0)

/-- The plaintext constants of lr/lr.go 154-242; `c5`, `c9` are the encrypted ones. -/
def mainConsts (E : Encoder C (List ℂ)) (prm : CPar C) (p : Hyper ℂ) (slotNum numCol : ℕ)
    (c5 c9 : CCt C) : Consts (CCt C) (RQ C × ℚ) where
  mask := EncodeMsgNew E prm (maskVec slotNum numCol)
  c3 := EncodeMsgNew E prm (fconst3 prm.fl p slotNum)
  c4 iter := EncodeMsgNew E prm (fconst4 prm.fl p slotNum iter)
  c5 := c5
  c6 iter := EncodeMsgNew E prm (fconst6 prm.fl p slotNum iter)
  c7 iter := EncodeMsgNew E prm (fconst7 prm.fl p slotNum iter)
  c8 := EncodeMsgNew E prm (fconst8 prm.fl p slotNum)
  c9 := c9

/-- The data ciphertext and the constants made from the labels (lr/lr.go 143, 171-186). -/
def mainData (E : Encoder C (List ℂ)) (prm : CPar C) (p : Hyper ℂ) (z : CCt C)
    (label : List ℂ) : Data (CCt C) (RQ C × ℚ) where
  z := z
  k1 := EncodeMsgNew E prm (fconst1 prm.fl p label)
  k2 iter := EncodeMsgNew E prm (fconst2 prm.fl p label iter)

/-- `main` of lr/lr.go (75-422).  `prm0` is `params` before `genTestParams`
changes its CRS; the row `featureData[i]` is read once. -/
def lrMain (E : Encoder C (List ℂ)) (prm0 : CPar C) (logN : ℕ) (cfg : MainCfg) (rnd : MainRand C)
    (featureData : List (List ℂ)) (labelData : List ℂ) : Go MainOut := do
  let labelData ← relabel cfg.isCls cfg.numData labelData
  let idset ← IDSet.addAll IDSet.new (companies cfg.numCompany)
  let (crs, kb) ← genTestParams logN (newCRS logN rnd.sample) rnd.sample' rnd.party
    (rnd.ids.f 0 (GoMap.keys idset))
  let prm := { prm0 with crs := crs }
  let enc := CEnc.new prm
  let pk ← kb.pkSet.get "company0"
  let (enc, beta) ← enc.EncryptMsgNew E prm (rnd.enc 0) (List.replicate cfg.slotNum 0) pk
  let (enc, v) ← enc.EncryptMsgNew E prm (rnd.enc 1) (List.replicate cfg.slotNum 0) pk
  let zVec ← packZ cfg.slotNum cfg.numCol cfg.numFeature cfg.hp.batchSize featureData
  let (enc, z) ← enc.EncryptMsgNewExpand E prm (rnd.enc 2) zVec pk (rnd.ids.f 1 (GoMap.keys idset))
  let label ← packLabel cfg.slotNum cfg.numCol cfg.hp.batchSize labelData
  let (enc, c5) ← enc.EncryptMsgNew E prm (rnd.enc 3) (fconst5 prm.fl cfg.hp cfg.slotNum) pk
  let (enc, c9) ← enc.EncryptMsgNew E prm (rnd.enc 4) (fconst9 prm.fl cfg.hp cfg.slotNum) pk
  let k := mainConsts E prm cfg.hp cfg.slotNum cfg.numCol c5 c9
  let d := mainData E prm cfg.hp z label
  let st ← forUp cfg.numIter (trainStep E prm kb rnd.sch rnd.dec k cfg.numRow cfg.numCol d)
    ⟨beta, v, ⟨Ev.new, kb.rlkSet, 0, []⟩, CDec.new prm, []⟩
  let row ← idx featureData cfg.testId
  let testVec ← packTest cfg.slotNum cfg.numFeature row
  let (_, test) ← enc.EncryptMsgNewExpand E prm (rnd.enc 5) testVec pk
    (rnd.ids.f 2 (GoMap.keys idset))
  let (sigmoid, _) ← infer (realHE prm kb.rtkSet rnd.sch) k cfg.numFeature test st.beta st.mach
  let (_, result) ← st.dec.Decrypt E sigmoid kb.skSet (rnd.dec (2 * cfg.numIter))
  let r0 ← idx result 0
  let y ← idx labelData cfg.testId
  return ⟨st.prints, result, judge r0 y⟩

end MK.Lr
