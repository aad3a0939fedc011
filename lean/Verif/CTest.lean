import Verif.LrSetup
import Mathlib.Analysis.SpecialFunctions.Log.Base

/-!
# The tests of mkckks (mkckks/mkckks_test.go)

`testEncAndDec` and the tests of the evaluator (`testEvaluatorAdd`, `…Sub`, `…Mul`, `…Rescale`,
`…Rot`, `…Conj`, `…MulHoisted`, `…RotHoisted`, `…MulPtxt`), with the key generation and the test
vectors they start from.  A test is a computation that either panics or returns whether its
assertions hold.

The numbers of messages are complex numbers: the rounding of `complex128` additions and of
`math.Log2` in the tests is not modelled.  What the tests compute with ciphertexts is the model of
the program.
-/

noncomputable section

namespace MK.CT

variable {C : Ctx}

/-- `genTestParams` (mkckks/mkckks_test.go 135-179): the loop over the id set in the order `order`.
The body is that of `genTestParams` of lr (`Lr.genParty`) without rotation keys; `NewRotationKeySet`
and `NewConjugationKeySet` stay empty, since the lines that fill them are commented out. -/
def genTestParams (crs : CRS C) (rnd : String → Lr.PartyRand C) (order : List String) :
    Go (Lr.KeyBag C) := Lr.genParties crs [] rnd order Lr.KeyBag.new

/-- What one call of `newTestVectors` (mkckks/mkckks_test.go 181-199) draws: the uniform numbers of `[0, 1]` behind the real and
the imaginary parts, and the samples of the encryption. -/
structure Draw (C : Ctx) where
  re : ℕ → ℝ
  im : ℕ → ℝ
  rnd : EncRand C

/-- lattigo's `utils.RandFloat64(min, max)`: `min + f*(max-min)` for a uniform `f`
(mkckks/mkckks_test.go 189). -/
def randFloat (f min max : ℝ) : ℝ := min + f * (max - min)

/-- The message of `newTestVectors` (mkckks/mkckks_test.go 186-190); `1 << logSlots` is `N/2`. -/
def testMsg (C : Ctx) (d : Draw C) (a b : ℂ) : List ℂ :=
  (List.range (C.N / 2)).map fun i => ⟨randFloat (d.re i) a.re b.re, randFloat (d.im i) a.im b.im⟩

/-- `newTestVectors` (mkckks/mkckks_test.go 181-199). -/
def newTestVectors (E : Encoder C (List ℂ)) (prm : CPar C) (pkSet : KeySet (PublicKey C))
    (enc : CEnc C) (d : Draw C) (id : String) (a b : ℂ) : Go (CEnc C × List ℂ × CCt C) := do
  let msg := testMsg C d a b
  let pk ← pkSet.get id
  let (enc, ct) ← enc.EncryptMsgNew E prm d.rnd msg pk
  return (enc, msg, ct)

/-- The loops that fill `msgList` and `ctList` (mkckks/mkckks_test.go 211-213, 330-334, 425-429,
472-476), from user number `i` on. -/
def vectors (E : Encoder C (List ℂ)) (prm : CPar C) (pkSet : KeySet (PublicKey C)) (a b : ℂ)
    (d : ℕ → Draw C) : ℕ → List String → CEnc C → Go (CEnc C × List (List ℂ) × List (CCt C))
  | _, [], enc => .ok (enc, [], [])
  | i, id :: l, enc => do
    let (enc, m, ct) ← newTestVectors E prm pkSet enc (d i) id a b
    let (enc, ms, cts) ← vectors E prm pkSet a b d (i + 1) l enc
    return (enc, m :: ms, ct :: cts)

open Classical in
/-- `require.GreaterOrEqual(t, -math.Log2(params.Scale())+float64(params.LogSlots())+slack,
math.Log2(math.Abs(x)))`; `math.Log2(0)` is `-Inf`
(mkckks/mkckks_test.go 221, 258, 357-358 and the like). -/
def within (prm : CPar C) (logSlots slack : ℕ) (x : ℝ) : Bool :=
  decide (x = 0 ∨ Real.logb 2 |x| ≤ -Real.logb 2 prm.scale + logSlots + slack)

/-- The loop over the slots in `testEncAndDec` (mkckks/mkckks_test.go 219-222), in
`testEvaluatorAdd` and `testEvaluatorSub`: only real parts are compared. -/
def checkRe (prm : CPar C) (logSlots : ℕ) (msg out : List ℂ) : Go Bool :=
  if out.length < msg.length then .error .indexRange
  else .ok ((List.range msg.length).all fun j =>
    within prm logSlots 8 (msg.getD j 0 - out.getD j 0).re)

/-- The loop over the users in `testEncAndDec` (mkckks/mkckks_test.go 217-223); the first assertion
that fails ends the subtest. -/
def decLoop (E : Encoder C (List ℂ)) (prm : CPar C) (logSlots : ℕ) (skSet : KeySet (SecretKey C))
    (π : ℕ → Sched) : ℕ → List (List ℂ) → List (CCt C) → CDec C → Go (CDec C × Bool)
  | i, msg :: ms, ct :: cts, dec => do
    let (dec, out) ← dec.Decrypt E ct skSet (π i)
    let ok ← checkRe prm logSlots msg out
    if ok then decLoop E prm logSlots skSet π (i + 1) ms cts dec else return (dec, false)
  | _, _, _, dec => .ok (dec, true)

/-- `testEncAndDec` (mkckks/mkckks_test.go 201-226).  `d` and `π` give the draws and the orders of
map iteration for every user. -/
def testEncAndDec (E : Encoder C (List ℂ)) (prm : CPar C) (logSlots : ℕ) (kb : Lr.KeyBag C)
    (enc : CEnc C) (dec : CDec C) (users : List String) (d : ℕ → Draw C) (π : ℕ → Sched) :
    Go (CEnc C × CDec C × Bool) := do
  let (enc, msgs, cts) ← vectors E prm kb.pkSet ⟨-1, -1⟩ ⟨1, 1⟩ d 0 users enc
  let (dec, ok) ← decLoop E prm logSlots kb.skSet π 0 msgs cts dec
  return (enc, dec, ok)

/-- The part that `testEvaluatorAdd`, `testEvaluatorSub` and `testEvaluatorRescale` share
(mkckks/mkckks_test.go 230-273, 275-318, 364-413), for the operation `op` on ciphertexts and `f` on numbers. -/
def testBinary (op : Ev C → CCt C → CCt C → Go (Ev C × CCt C)) (f : ℂ → ℂ → ℂ)
    (E : Encoder C (List ℂ)) (prm : CPar C) (logSlots : ℕ) (kb : Lr.KeyBag C) (enc : CEnc C)
    (dec : CDec C) (ev : Ev C) (d1 d2 : Draw C) (π : ℕ → Sched) : Go Bool := do
  let (enc, msg1, ct1) ← newTestVectors E prm kb.pkSet enc d1 "user1" ⟨-1, -1⟩ ⟨1, 1⟩
  let (_, msg2, ct2) ← newTestVectors E prm kb.pkSet enc d2 "user2" ⟨-1, -1⟩ ⟨1, 1⟩
  let msg3 := (List.range (C.N / 2)).map fun i => f (msg1.getD i 0) (msg2.getD i 0)
  let (_, ct3) ← op ev ct1 ct2
  let (dec, out1) ← dec.Decrypt E ct1 kb.skSet (π 0)
  let (dec, out2) ← dec.Decrypt E ct2 kb.skSet (π 1)
  let (_, out3) ← dec.Decrypt E ct3 kb.skSet (π 2)
  let ok1 ← checkRe prm logSlots msg1 out1
  let ok2 ← checkRe prm logSlots msg2 out2
  let ok3 ← checkRe prm logSlots msg3 out3
  return ok1 && ok2 && ok3

/-- `testEvaluatorAdd` (mkckks/mkckks_test.go 230-273). -/
def testEvaluatorAdd (E : Encoder C (List ℂ)) (prm : CPar C) (logSlots : ℕ) (kb : Lr.KeyBag C)
    (enc : CEnc C) (dec : CDec C) (ev : Ev C) (d1 d2 : Draw C) (π : ℕ → Sched) : Go Bool :=
  testBinary (fun ev a b => ev.AddNew prm a b (π 3)) (· + ·) E prm logSlots kb enc dec ev d1 d2 π

/-- `testEvaluatorSub` (mkckks/mkckks_test.go 275-318). -/
def testEvaluatorSub (E : Encoder C (List ℂ)) (prm : CPar C) (logSlots : ℕ) (kb : Lr.KeyBag C)
    (enc : CEnc C) (dec : CDec C) (ev : Ev C) (d1 d2 : Draw C) (π : ℕ → Sched) : Go Bool :=
  testBinary (fun ev a b => ev.SubNew prm a b (π 3)) (· - ·) E prm logSlots kb enc dec ev d1 d2 π

/-- `testEvaluatorRescale` (mkckks/mkckks_test.go 364-413): the sum is multiplied by the modulus of
its level, as a `uint64`, its scale by the `float64` of that number, and it is rescaled in place; the
error `Rescale` returns is ignored. -/
def testEvaluatorRescale (E : Encoder C (List ℂ)) (prm : CPar C) (logSlots : ℕ) (kb : Lr.KeyBag C)
    (enc : CEnc C) (dec : CDec C) (ev : Ev C) (d1 d2 : Draw C) (π : ℕ → Sched) : Go Bool :=
  testBinary (fun ev a b => do
      let constant := C.q (← a.ct.Level)
      let (ev, c) ← ev.AddNew prm a b (π 3)
      let c ← prm.MultByConst c (.u64 constant) c (π 4)
      let c : CCt C := ⟨c.ct, prm.fl.rnd (c.scale * prm.fl.rnd constant)⟩
      let (_, ev, c) ← ev.rescaleSelf prm c prm.scale (π 5)
      return (ev, c))
    (· + ·) E prm logSlots kb enc dec ev d1 d2 π

/-- `msg.Value[j] += msgList[i].Value[j]` for all `j` (mkckks/mkckks_test.go 342-344).  `msg` is
the pointer `msgList[0]`, so the write is visible in `msgList[0]`; the `j`-th step reads and writes
only entry `j`, also when both sides are the same message. -/
def bump (msgs : List (List ℂ)) (i : ℕ) : List (List ℂ) :=
  let msg := msgs.getD 0 []
  msgs.set 0 ((List.range msg.length).map fun j => msg.getD j 0 + (msgs.getD i []).getD j 0)

/-- `for i := range userList` with `ct = eval.AddNew(ct, ctList[i])` and the additions of messages
(mkckks/mkckks_test.go 339-345, 435-441, 481-487), from user number `i` on; `cts` are the
ciphertexts of the users from there. -/
def sumLoop (prm : CPar C) (π : ℕ → Sched) :
    ℕ → List (CCt C) → Ev C → CCt C → List (List ℂ) → Go (Ev C × CCt C × List (List ℂ))
  | _, [], ev, ct, msgs => .ok (ev, ct, msgs)
  | i, c :: cts, ev, ct, msgs => do
    let (ev, ct) ← ev.AddNew prm ct c (π i)
    sumLoop prm π (i + 1) cts ev ct (bump msgs i)

/-- The loop over the slots of the evaluator tests (mkckks/mkckks_test.go 355-359): real and
imaginary parts of `delta i`. -/
def checkC (prm : CPar C) (logSlots slack n : ℕ) (delta : ℕ → ℂ) : Bool :=
  (List.range n).all fun i => within prm logSlots slack (delta i).re &&
    within prm logSlots slack (delta i).im

/-- What the tests of the evaluator share (mkckks/mkckks_test.go 320-362, 415-460, 462-504,
506-550, 552-598, 600-644): the vectors with all slots equal to `z`, their sum, the operation `op`
(which may use the message sum), the decryption of its result and the comparison `cmp` of the message
sum with it. -/
def testSum (op : List ℂ → Ev C → CCt C → Go (Ev C × CCt C)) (cmp : List ℂ → List ℂ → Bool) (z : ℂ)
    (E : Encoder C (List ℂ)) (prm : CPar C) (kb : Lr.KeyBag C) (enc : CEnc C) (dec : CDec C)
    (ev : Ev C) (users : List String) (d : ℕ → Draw C) (π : ℕ → Sched) (π' : Sched) :
    Go Bool := do
  let (_, msgs, cts) ← vectors E prm kb.pkSet z z d 0 users enc
  match cts with
  | [] => .error .indexRange
  | ct :: _ =>
    let (ev, ct, msgs) ← sumLoop prm π 0 cts ev ct msgs
    let msg := msgs.getD 0 []
    let (_, res) ← op msg ev ct
    let (_, out) ← dec.Decrypt E res kb.skSet π'
    if out.length ≠ msg.length then .error .indexRange
    else .ok (cmp msg out)

/-- `testEvaluatorMul` (mkckks/mkckks_test.go 320-362); both operands are the object `ct`. -/
def testEvaluatorMul (E : Encoder C (List ℂ)) (prm : CPar C) (logSlots : ℕ) (kb : Lr.KeyBag C)
    (enc : CEnc C) (dec : CDec C) (ev : Ev C) (users : List String) (d : ℕ → Draw C)
    (π : ℕ → Sched) (πo π' : Sched) : Go Bool :=
  testSum (fun _ ev ct => do
      let (ev, _, r) ← ev.MulRelinNew prm ct ct true kb.rlkSet πo
      return (ev, r))
    (fun msg out => checkC prm logSlots 12 out.length fun i =>
      out.getD i 0 - msg.getD i 0 * msg.getD i 0)
    ⟨0.1 / users.length, 1 / users.length⟩ E prm kb enc dec ev users d π π'

/-- The comparison of `testEvaluatorRot` (mkckks/mkckks_test.go 448-457). -/
def rotCheck (prm : CPar C) (logSlots : ℕ) (rot : ℤ) (msg out : List ℂ) : Bool :=
  checkC prm logSlots 11 out.length fun i =>
    if rot > 0 then out.getD i 0 - msg.getD (((i : ℤ) + rot) % (msg.length : ℤ)).toNat 0
    else msg.getD i 0 - out.getD (((i : ℤ) - rot) % (msg.length : ℤ)).toNat 0

/-- `testEvaluatorRot` (mkckks/mkckks_test.go 415-460) with `rotate` in the place of
`eval.RotateNew(ct, rot, rtkSet)`. -/
def testRotWith (rotate : Ev C → CCt C → Go (Ev C × CCt C)) (rot : ℤ) (E : Encoder C (List ℂ))
    (prm : CPar C) (logSlots : ℕ) (kb : Lr.KeyBag C) (enc : CEnc C) (dec : CDec C) (ev : Ev C)
    (users : List String) (d : ℕ → Draw C) (π : ℕ → Sched) (πd π' : Sched) : Go Bool :=
  testSum (fun _ ev ct => do
      let c ← dropLevel ct.ct 1 (πd.f 0 ct.ct.value.keys)
      rotate ev ⟨c, ct.scale⟩)
    (rotCheck prm logSlots rot) ⟨0.5 / users.length, 1 / users.length⟩ E prm kb enc dec ev users d π π'

/-- `testEvaluatorRot` (mkckks/mkckks_test.go 415-460); `rtkSet` holds the rotation keys. -/
def testEvaluatorRot (rot : ℤ) (rtkSet : RotationKeySet (RotKey C)) (E : Encoder C (List ℂ))
    (prm : CPar C) (logSlots : ℕ) (kb : Lr.KeyBag C) (enc : CEnc C) (dec : CDec C) (ev : Ev C)
    (users : List String) (d : ℕ → Draw C) (π : ℕ → Sched) (πd πo π' : Sched) : Go Bool :=
  testRotWith (fun ev ct => ev.RotateNew prm ct rot rtkSet πo) rot E prm logSlots kb enc dec ev
    users d π πd π'

/-- `testEvaluatorConj` (mkckks/mkckks_test.go 462-504); `cjkSet` holds the conjugation keys. -/
def testEvaluatorConj (cjkSet : KeySet (ConjKey C)) (E : Encoder C (List ℂ)) (prm : CPar C)
    (logSlots : ℕ) (kb : Lr.KeyBag C) (enc : CEnc C) (dec : CDec C) (ev : Ev C)
    (users : List String) (d : ℕ → Draw C) (π : ℕ → Sched) (πo π' : Sched) : Go Bool :=
  testSum (fun _ ev ct => ev.ConjugateNew prm ct cjkSet πo)
    (fun msg out => checkC prm logSlots 11 out.length fun i =>
      out.getD i 0 - starRingEnd ℂ (msg.getD i 0))
    ⟨0.5 / users.length, 1 / users.length⟩ E prm kb enc dec ev users d π π'

/-- `testEvaluatorMulHoisted` (mkckks/mkckks_test.go 506-550); the second hoisted form is `nil`. -/
def testEvaluatorMulHoisted (E : Encoder C (List ℂ)) (prm : CPar C) (logSlots : ℕ) (kb : Lr.KeyBag C)
    (enc : CEnc C) (dec : CDec C) (ev : Ev C) (users : List String) (d : ℕ → Draw C)
    (π : ℕ → Sched) (πd πh πo π' : Sched) : Go Bool :=
  testSum (fun _ ev ct => do
      let c ← dropLevel ct.ct 1 (πd.f 0 ct.ct.value.keys)
      let ct : CCt C := ⟨c, ct.scale⟩
      let (ev, h) ← ev.HoistedForm ct πh
      ev.MulRelinHoistedNew prm ct ct (some h) none kb.rlkSet πo)
    (fun msg out => checkC prm logSlots 12 out.length fun i =>
      out.getD i 0 - msg.getD i 0 * msg.getD i 0)
    ⟨0.1 / users.length, 1 / users.length⟩ E prm kb enc dec ev users d π π'

/-- `testEvaluatorRotHoisted` (mkckks/mkckks_test.go 552-598).  `draw` is the number
`utils.RandUint64()` returns; its remainder modulo `logSlots-1` is an integer division by zero, which
panics, if `logSlots` is 1.  (`logSlots` 0, where Go's `uint64` of -1 is a large modulus, does not occur:
the ring degree is at least 4.) -/
def testEvaluatorRotHoisted (draw : ℕ) (rtkSet : RotationKeySet (RotKey C)) (E : Encoder C (List ℂ))
    (prm : CPar C) (logSlots : ℕ) (kb : Lr.KeyBag C) (enc : CEnc C) (dec : CDec C) (ev : Ev C)
    (users : List String) (d : ℕ → Draw C) (π : ℕ → Sched) (πd πh πo π' : Sched) : Go Bool :=
  if logSlots = 1 then .error (.msg "runtime error: integer divide by zero")
  else
    let rot : ℤ := 2 ^ (draw % (logSlots - 1))
    testRotWith (fun ev ct => do
        let (ev, h) ← ev.HoistedForm ct πh
        ev.RotateHoistedNew prm ct rot h rtkSet πo) rot E prm logSlots kb enc dec ev users d π πd π'

/-- `testEvaluatorMulPtxt` (mkckks/mkckks_test.go 600-644); the plaintext is the encoding of the
message sum. -/
def testEvaluatorMulPtxt (E : Encoder C (List ℂ)) (prm : CPar C) (logSlots : ℕ) (kb : Lr.KeyBag C)
    (enc : CEnc C) (dec : CDec C) (ev : Ev C) (users : List String) (d : ℕ → Draw C)
    (π : ℕ → Sched) (πd πo π' : Sched) : Go Bool :=
  testSum (fun msg ev ct => do
      let pt := EncodeMsgNew E prm msg
      let c ← dropLevel ct.ct 1 (πd.f 0 ct.ct.value.keys)
      ev.MulPtxtNew prm ⟨c, ct.scale⟩ pt.1 pt.2 πo)
    (fun msg out => checkC prm logSlots 12 out.length fun i =>
      out.getD i 0 - msg.getD i 0 * msg.getD i 0)
    ⟨0.1 / users.length, 1 / users.length⟩ E prm kb enc dec ev users d π π'

end MK.CT
