import Verif.CTest

/-!
# The benchmarks of mkckks (mkckks/mkckks_benchmark_test.go) and the whole of `TestCKKS`

`BenchmarkMKCKKS` with `benchMulAndRelin`, and the three benchmarks whose calls are commented out
(`benchMulAndRelinHoisted`, `benchSquareHoisted`, `benchRotate`).  The testing package runs the body
`b.N` times, for several values of `b.N` in a row; only the total number of iterations matters, since
all calls work on the same ciphertexts, keys and evaluator.  Measuring time is not modelled.
-/

noncomputable section

namespace MK.CT

variable {C : Ctx}

/-- `for i := range userList` with `ct0 = eval.AddNew(ct0, ctList[i])` and
`ct1 = eval.SubNew(ct1, ctList[i])` (mkckks/mkckks_benchmark_test.go 73-76, 129-132). -/
def sumDiff (prm : CPar C) (π : ℕ → Sched) :
    ℕ → List (CCt C) → Ev C → CCt C → CCt C → Go (Ev C × CCt C × CCt C)
  | _, [], ev, ct0, ct1 => .ok (ev, ct0, ct1)
  | i, c :: cts, ev, ct0, ct1 => do
    let (ev, ct0) ← ev.AddNew prm ct0 c (π (2 * i))
    let (ev, ct1) ← ev.SubNew prm ct1 c (π (2 * i + 1))
    sumDiff prm π (i + 1) cts ev ct0 ct1

/-- `for i := range userList { ct = eval.AddNew(ct, ctList[i]) }`
(mkckks/mkckks_benchmark_test.go 101-103, 159-161). -/
def sumCts (prm : CPar C) (π : ℕ → Sched) : ℕ → List (CCt C) → Ev C → CCt C → Go (Ev C × CCt C)
  | _, [], ev, ct => .ok (ev, ct)
  | i, c :: cts, ev, ct => do
    let (ev, ct) ← ev.AddNew prm ct c (π i)
    sumCts prm π (i + 1) cts ev ct

/-- `for i := 0; i < b.N; i++ { … }` (mkckks/mkckks_benchmark_test.go 79-81, 106-108, 135-139, 164-167), for
`n` iterations in all.  The program drops the results of the
iterations; here they are returned in a list, so that one can speak of them. -/
def iterate {σ ρ : Type _} (body : ℕ → σ → Go (σ × ρ)) : ℕ → ℕ → σ → Go (σ × List ρ)
  | _, 0, s => .ok (s, [])
  | i, n + 1, s => do
    let (s, r) ← body i s
    let (s, rs) ← iterate body (i + 1) n s
    return (s, r :: rs)

/-- The messages' corners `complex(-1, 1)` (mkckks/mkckks_benchmark_test.go 67, 96, 123, 154). -/
def zBench : ℂ := ⟨-1, 1⟩

/-- `benchMulAndRelin` (mkckks/mkckks_benchmark_test.go 57-84) with `n` iterations.  The operands are
different objects, since every `AddNew` and `SubNew` makes a new one and there is a user. -/
def benchMulAndRelin (E : Encoder C (List ℂ)) (prm : CPar C) (pkSet : KeySet (PublicKey C))
    (users : List String) (d : ℕ → Draw C) (π πm : ℕ → Sched) (n : ℕ) (enc : CEnc C) (ev : Ev C)
    (rlk : RlkSet C) : Go (CEnc C × Ev C × RlkSet C × List (CCt C)) := do
  let (enc, _, cts) ← vectors E prm pkSet zBench zBench d 0 users enc
  match cts with
  | [] => .error .indexRange
  | c :: _ =>
    let (ev, ct0, ct1) ← sumDiff prm π 0 cts ev c c
    let ((ev, rlk), rs) ← iterate (fun i (s : Ev C × RlkSet C) => do
      let (ev, rlk, r) ← s.1.MulRelinNew prm ct0 ct1 false s.2 (πm i)
      return ((ev, rlk), r)) 0 n (ev, rlk)
    return (enc, ev, rlk, rs)

/-- `benchMulAndRelinHoisted` (mkckks/mkckks_benchmark_test.go 113-142); the second operand starts
from `ctList[1]`. -/
def benchMulAndRelinHoisted (E : Encoder C (List ℂ)) (prm : CPar C) (pkSet : KeySet (PublicKey C))
    (users : List String) (d : ℕ → Draw C) (π πm : ℕ → Sched) (n : ℕ) (enc : CEnc C) (ev : Ev C)
    (rlk : RlkSet C) : Go (CEnc C × Ev C × List (CCt C)) := do
  let (enc, _, cts) ← vectors E prm pkSet zBench zBench d 0 users enc
  match cts with
  | c :: c' :: _ =>
    let (ev, ct0, ct1) ← sumDiff prm π 0 cts ev c c'
    let (ev, rs) ← iterate (fun i (ev : Ev C) => do
      let (ev, h0) ← ev.HoistedForm ct0 ((πm i).sub 0)
      let (ev, h1) ← ev.HoistedForm ct1 ((πm i).sub 1)
      ev.MulRelinHoistedNew prm ct0 ct1 (some h0) (some h1) rlk ((πm i).sub 2)) 0 n ev
    return (enc, ev, rs)
  | _ => .error .indexRange

/-- `benchSquareHoisted` (mkckks/mkckks_benchmark_test.go 144-170). -/
def benchSquareHoisted (E : Encoder C (List ℂ)) (prm : CPar C) (pkSet : KeySet (PublicKey C))
    (users : List String) (d : ℕ → Draw C) (π πm : ℕ → Sched) (n : ℕ) (enc : CEnc C) (ev : Ev C)
    (rlk : RlkSet C) : Go (CEnc C × Ev C × List (CCt C)) := do
  let (enc, _, cts) ← vectors E prm pkSet zBench zBench d 0 users enc
  match cts with
  | [] => .error .indexRange
  | c :: _ =>
    let (ev, ct) ← sumCts prm π 0 cts ev c
    let (ev, rs) ← iterate (fun i (ev : Ev C) => do
      let (ev, h) ← ev.HoistedForm ct ((πm i).sub 0)
      ev.MulRelinHoistedNew prm ct ct (some h) (some h) rlk ((πm i).sub 1)) 0 n ev
    return (enc, ev, rs)

/-- `benchRotate` (mkckks/mkckks_benchmark_test.go 86-111). -/
def benchRotate (E : Encoder C (List ℂ)) (prm : CPar C) (pkSet : KeySet (PublicKey C))
    (rtkSet : RotationKeySet (RotKey C)) (users : List String) (d : ℕ → Draw C) (π πm : ℕ → Sched)
    (n : ℕ) (enc : CEnc C) (ev : Ev C) : Go (CEnc C × Ev C × List (CCt C)) := do
  let (enc, _, cts) ← vectors E prm pkSet zBench zBench d 0 users enc
  match cts with
  | [] => .error .indexRange
  | c :: _ =>
    let (ev, ct) ← sumCts prm π 0 cts ev c
    let (ev, rs) ← iterate (fun i (ev : Ev C) => ev.RotateNew prm ct 2 rtkSet (πm i)) 0 n ev
    return (enc, ev, rs)

/-- `userList` (mkckks/mkckks_benchmark_test.go 27-33; mkckks/mkckks_test.go 109-115); a negative
flag `-n`, with which `make` panics, is not modelled. -/
def userList (n : ℕ) : List String := (List.range n).map fun i => "user" ++ toString i

/-- `for numUsers := 2; numUsers <= *maxUsers; numUsers *= 2` (mkckks/mkckks_benchmark_test.go 40;
mkckks/mkckks_test.go 124), from `numUsers` on.  The doubling overflows only beyond `2^62` users. -/
def doubling {σ : Type _} (body : ℕ → σ → Go σ) (max numUsers : ℕ) (s : σ) : Go σ :=
  if 0 < numUsers ∧ numUsers ≤ max then do
    let s ← body numUsers s
    doubling body max (numUsers * 2) s
  else .ok s
termination_by max + 1 - numUsers

/-- The body of the loop over the parameter sets in `BenchmarkMKCKKS`
(mkckks/mkckks_benchmark_test.go 26-44) for parameters `prm`.  `order` is the order in which
`genTestParams` visits the id set; `iters` gives the number of iterations for every number of users. -/
def benchmarkMKCKKS (E : Encoder C (List ℂ)) (prm : CPar C) (rnd : String → Lr.PartyRand C)
    (order : List String) (maxUsers : ℕ) (d : ℕ → ℕ → Draw C) (π πm : ℕ → ℕ → Sched)
    (iters : ℕ → ℕ) : Go Unit := do
  let kb ← genTestParams prm.crs rnd order
  let _ ← doubling (fun k (s : CEnc C × Ev C × RlkSet C) => do
    let (enc, ev, rlk, _) ← benchMulAndRelin E prm kb.pkSet ((userList maxUsers).take k) (d k) (π k)
      (πm k) (iters k) s.1 s.2.1 s.2.2
    return (enc, ev, rlk)) maxUsers 2 (CEnc.new prm, Ev.new, kb.rlkSet)
  return ()

/-- `testEvaluatorMul` (mkckks/mkckks_test.go 320-362) with the parts of the test context that it
changes: encryptor, decryptor, evaluator and the relinearization keys (whose pools `MulRelinNew`
writes).  A failing assertion ends the subtest only, so the states are returned with the verdict. -/
def testMulRun (E : Encoder C (List ℂ)) (prm : CPar C) (logSlots : ℕ) (kb : Lr.KeyBag C)
    (users : List String) (d : ℕ → Draw C) (π : ℕ → Sched) (πo π' : Sched)
    (st : CEnc C × CDec C × Ev C × RlkSet C) : Go ((CEnc C × CDec C × Ev C × RlkSet C) × Bool) := do
  let z : ℂ := ⟨0.1 / users.length, 1 / users.length⟩
  let (enc, msgs, cts) ← vectors E prm kb.pkSet z z d 0 users st.1
  match cts with
  | [] => .error .indexRange
  | ct :: _ =>
    let (ev, ct, msgs) ← sumLoop prm π 0 cts st.2.2.1 ct msgs
    let msg := msgs.getD 0 []
    let (ev, rlk, res) ← ev.MulRelinNew prm ct ct true st.2.2.2 πo
    let (dec, out) ← st.2.1.Decrypt E res kb.skSet π'
    if out.length ≠ msg.length then .error .indexRange
    else .ok ((enc, dec, ev, rlk), checkC prm logSlots 12 out.length fun i =>
      out.getD i 0 - msg.getD i 0 * msg.getD i 0)

/-- What one test of `TestCKKS` (mkckks/mkckks_test.go 93-133) draws: the draws of its vectors and the orders of map iteration. -/
structure TestRand (C : Ctx) where
  d : ℕ → Draw C
  π : ℕ → Sched
  πo : Sched
  π' : Sched

/-- The body of the loop over the parameter sets in `TestCKKS` (mkckks/mkckks_test.go 108-132) for
parameters `prm`: whether all assertions hold.  `order` is the order in which `genTestParams` visits the
id set, `t0` belongs to `testEncAndDec` and `t k` to `testEvaluatorMul` with `k` users.  The error that
`genTestParams` returns is that of the random source. -/
def testCKKS (E : Encoder C (List ℂ)) (prm : CPar C) (logSlots : ℕ) (rnd : String → Lr.PartyRand C)
    (order : List String) (maxUsers : ℕ) (t0 : TestRand C) (t : ℕ → TestRand C) : Go Bool := do
  let kb ← genTestParams prm.crs rnd order
  let (enc, dec, ok) ← testEncAndDec E prm logSlots kb (CEnc.new prm) (CDec.new prm)
    (userList maxUsers) t0.d t0.π
  let (_, ok) ← doubling (fun k (s : (CEnc C × CDec C × Ev C × RlkSet C) × Bool) => do
    let (st, b) ← testMulRun E prm logSlots kb ((userList maxUsers).take k) (t k).d (t k).π (t k).πo
      (t k).π' s.1
    return (st, s.2 && b)) maxUsers 2 ((enc, dec, Ev.new, kb.rlkSet), ok)
  return ok

end MK.CT
