import Verif.Evaluator
import Verif.Word
import Mathlib.Data.Nat.Log

/-!
# The logistic-regression programs (lr/lr.go, lr/lr_toy.go, lr/lr_minibatch.go,
lr/lr_minibatch_toy.go)

The programs only use four operations of `mkckks.Evaluator`.  They are written here once, for any
implementation of these operations in any monad: `HE`.  Three implementations are used: exact
arithmetic on slot vectors (`slotsHE`), error and scale bounds, and the evaluator of
`Verif/Evaluator.lean`.

Numbers: `K` is a field.  `const1` to `const9` are the formulas of the constants that `main`
computes, in exact arithmetic; the constants as float64 computes them are `fconst1` to `fconst9` of
`Verif/LrMain.lean`.
The slices of `complex128` are lists; indexing out of range panics.
-/

namespace MK.Lr

/-- The operations of `mkckks.Evaluator` used by the programs: `MulRelinNew` (the flag says that
both operands are the same object), `MulPtxtNew`, `AddNew`, `RotateNew`. -/
structure HE (M : Type → Type) (C P : Type) where
  mulRelin : Bool → C → C → M C
  mulPtxt : C → P → M C
  add : C → C → M C
  rotate : C → ℤ → M C

variable {M : Type → Type} [Monad M] {C P : Type}

/-- `for i := i0; i < n; i *= 2 { s = body(i, s) }` for `i0 > 0`. -/
def forDouble {σ : Type} (n i : ℕ) (body : ℕ → σ → M σ) (s : σ) : M σ :=
  if _h : i < n ∧ 0 < i then do
    let s ← body i s
    forDouble n (i * 2) body s
  else pure s
termination_by n - i

/-- `SumRowVec` (lr/lr.go 428-435, lr/lr_minibatch.go 467-474, lr/lr_toy.go 455-462, lr/lr_minibatch_toy.go 495-502; also the
loop lr/lr.go 285-288). -/
def SumRowVec (h : HE M C P) (ctIn : C) (numRow numCol : ℕ) : M C :=
  forDouble numRow 1 (fun i ct => do
    let r ← h.rotate ct ((numCol * i : ℕ) : ℤ)
    h.add ct r) ctIn

/-- `SumColVec` (lr/lr.go 437-450, lr/lr_minibatch.go 476-489, lr/lr_toy.go 464-477,
lr/lr_minibatch_toy.go 504-517).  `numRow` is not used. -/
def SumColVec (h : HE M C P) (ctIn : C) (mask : P) (numCol : ℕ) : M C := do
  let ct ← forDouble numCol 1 (fun i ct => do
    let r ← h.rotate ct (i : ℤ)
    h.add ct r) ctIn
  let ct ← h.mulPtxt ct mask
  forDouble numCol 1 (fun i ct => do
    let r ← h.rotate ct (-(i : ℤ))
    h.add ct r) ct

/-- The encoded constants of `main` that do not depend on the data (lr/lr.go 157-242):
`const3_pt`, `const4_pt[iter]`, `const5_ct`, `const6_pt[iter]`, `const7_pt[iter]`, `const8_pt`,
`const9_ct` and the mask. -/
structure Consts (C P : Type) where
  mask : P
  c3 : P
  c4 : ℕ → P
  c5 : C
  c6 : ℕ → P
  c7 : ℕ → P
  c8 : P
  c9 : C

/-- The data ciphertext `z` with the two constants depending on the labels: `const1_pt` and
`const2_pt[iter]` (lr/lr.go 171-185). -/
structure Data (C P : Type) where
  z : C
  k1 : P
  k2 : ℕ → P

/-- The common first part of a training iteration (lr/lr.go 250-277; lr/lr_minibatch.go
294-322).  Returns `z1, z2, m2, m1, s`. -/
def depth3 (h : HE M C P) (k : Consts C P) (numCol a : ℕ) (d : Data C P) (v : C) :
    M (C × C × C × C × C) := do
  -- depth 1
  let m ← h.mulRelin false d.z v
  let z1 ← h.mulPtxt d.z d.k1
  let z2 ← h.mulPtxt d.z (d.k2 a)
  let z3 ← h.mulPtxt d.z k.c3
  let z4 ← h.mulPtxt d.z (k.c4 a)
  -- depth 2
  let m ← SumColVec h m k.mask numCol
  -- depth 3
  let m2 ← h.mulRelin true m m
  let m2 ← h.add m2 k.c5
  let m1 ← h.mulRelin false m z3
  let s ← h.mulRelin false z4 m
  pure (z1, z2, m2, m1, s)

/-- One iteration of the training loop of lr.go and lr_toy.go (lr/lr.go 247-305).  The state is
`(beta, v)`. -/
def lrIter (h : HE M C P) (k : Consts C P) (numRow numCol : ℕ) (d : Data C P) (a : ℕ)
    (st : C × C) : M (C × C) := do
  let (beta, v) := st
  let (z1, z2, m2, m1, s) ← depth3 h k numCol a d v
  -- depth 4
  let g ← h.mulRelin false m1 m2
  let g ← h.add g z1
  let g ← SumRowVec h g numRow numCol
  let betaUpdate ← h.add v g
  let u ← h.mulRelin false s m2
  let u ← h.add u z2
  let vUpdate ← h.mulPtxt v (k.c6 a)
  let beta ← h.mulPtxt beta (k.c7 a)
  let vUpdate ← h.add vUpdate beta
  let u ← SumRowVec h u numRow numCol
  let vUpdate ← h.add vUpdate u
  pure (betaUpdate, vUpdate)

/-- `for a := 0; a < n; a++ { s = body(a, s) }` -/
def forUp {σ : Type} (n : ℕ) (body : ℕ → σ → M σ) (s : σ) : M σ :=
  match n with
  | 0 => pure s
  | n + 1 => do
    let s ← forUp n body s
    body n s

/-- The training loop of lr.go (lr/lr.go 247-315, without the printing). -/
def lrTrain (h : HE M C P) (k : Consts C P) (numRow numCol : ℕ) (d : Data C P) (numIter : ℕ)
    (beta v : C) : M (C × C) :=
  forUp numIter (lrIter h k numRow numCol d) (beta, v)

/-- The loop body over the ciphertexts of a batch (lr/lr_minibatch.go 292-329): adds `g` and `u` of
one data ciphertext to the accumulators. -/
def mbCtStep (h : HE M C P) (k : Consts C P) (numCol a : ℕ) (d : Data C P) (v : C)
    (acc : C × C) : M (C × C) := do
  let (z1, z2, m2, m1, s) ← depth3 h k numCol a d v
  let g ← h.mulRelin false m1 m2
  let g ← h.add g z1
  let u ← h.mulRelin false s m2
  let u ← h.add u z2
  let gAcc ← h.add acc.1 g
  let uAcc ← h.add acc.2 u
  pure (gAcc, uAcc)

/-- One iteration of the training loop of lr_minibatch.go (lr/lr_minibatch.go 284-345).  `zero a`
stands for the two fresh encryptions of zero (289-290), `d batchId ctId` for the data. -/
def mbIter (h : HE M C P) (k : Consts C P) (numRow numCol numBatch numCt : ℕ)
    (d : ℕ → ℕ → Data C P) (zero : ℕ → C × C) (a : ℕ) (st : C × C) : M (C × C) := do
  let (beta, v) := st
  let batchId := a % numBatch
  let (gAcc, uAcc) ← forUp numCt (fun ctId => mbCtStep h k numCol a (d batchId ctId) v) (zero a)
  let gAcc ← SumRowVec h gAcc numRow numCol
  let betaUpdate ← h.add v gAcc
  let vUpdate ← h.mulPtxt v (k.c6 a)
  let beta1 ← h.mulPtxt beta (k.c7 a)
  let vUpdate ← h.add vUpdate beta1
  let uAcc ← SumRowVec h uAcc numRow numCol
  let vUpdate ← h.add vUpdate uAcc
  pure (betaUpdate, vUpdate)

/-- The training loop of lr_minibatch.go (lr/lr_minibatch.go 284-358). -/
def mbTrain (h : HE M C P) (k : Consts C P) (numRow numCol numBatch numCt : ℕ)
    (d : ℕ → ℕ → Data C P) (zero : ℕ → C × C) (numIter : ℕ) (beta v : C) : M (C × C) :=
  forUp numIter (mbIter h k numRow numCol numBatch numCt d zero) (beta, v)

/-- Inference on one encrypted record (lr/lr.go 389-407; lr/lr_minibatch.go 427-447). -/
def infer (h : HE M C P) (k : Consts C P) (numFeature : ℕ) (test beta : C) : M C := do
  let ip ← h.mulRelin false test beta
  let ip ← forDouble numFeature 1 (fun i ct => do
    let r ← h.rotate ct (i : ℤ)
    h.add ct r) ip
  let t1 ← h.mulRelin true ip ip
  let t1 ← h.add t1 k.c5
  let t2 ← h.mulPtxt ip k.c8
  let sg ← h.mulRelin false t1 t2
  h.add sg k.c9

/-! ## The slot vectors that `main` encodes -/

open Word (idx upd)

variable {K : Type} [Field K]

/-- The hyperparameters (lr/lr.go 29-39): learning rate, weights, coefficients of the cubic, and
the number of records by which the gradient is divided. -/
structure Hyper (K : Type) where
  gamma : K
  eta : ℕ → K
  c3 : K
  c1 : K
  c0 : K
  batchSize : ℕ

/-- `mask_vector` (lr/lr.go 155-162; 205-212 of lr_minibatch.go, where the width is written as
the literal `2^3`). -/
def maskVec (slotNum numCol : ℕ) : List K :=
  (List.range slotNum).map fun i => if i % numCol = 0 then 1 else 0

/-- The formula of `const1_pt` (lr/lr.go 171-176) -/
def const1 (p : Hyper K) (label : List K) : List K :=
  label.map fun y => -p.gamma / p.batchSize * (p.c0 - y)

/-- The formula of `const2_pt[iter]` (lr/lr.go 178-186) -/
def const2 (p : Hyper K) (label : List K) (iter : ℕ) : List K :=
  label.map fun y => -(1 - p.eta iter) * p.gamma / p.batchSize * (p.c0 - y)

/-- The formula of `const3_pt` (lr/lr.go 188-193) -/
def const3 (p : Hyper K) (slotNum : ℕ) : List K :=
  List.replicate slotNum (-p.gamma / p.batchSize * p.c3)

/-- The formula of `const4_pt[iter]` (lr/lr.go 195-203) -/
def const4 (p : Hyper K) (slotNum iter : ℕ) : List K :=
  List.replicate slotNum (-(1 - p.eta iter) * p.gamma / p.batchSize * p.c3)

/-- The formula of `const5_ct` (lr/lr.go 205-210) -/
def const5 (p : Hyper K) (slotNum : ℕ) : List K := List.replicate slotNum (p.c1 / p.c3)

/-- The formula of `const6_pt[iter]` (lr/lr.go 212-219).  `const_msg.Value` still refers to `const_vector`, so
the missing assignment has no effect. -/
def const6 (p : Hyper K) (slotNum iter : ℕ) : List K := List.replicate slotNum (1 - p.eta iter)

/-- The formula of `const7_pt[iter]` (lr/lr.go 220-227) -/
def const7 (p : Hyper K) (slotNum iter : ℕ) : List K := List.replicate slotNum (p.eta iter)

/-- The formula of `const8_pt` (lr/lr.go 229-234) -/
def const8 (p : Hyper K) (slotNum : ℕ) : List K := List.replicate slotNum p.c3

/-- The formula of `const9_ct` (lr/lr.go 236-241) -/
def const9 (p : Hyper K) (slotNum : ℕ) : List K := List.replicate slotNum p.c0

/-- `z_vector` of lr.go (lr/lr.go 131-141): `numCol` is `2^3`, the features are the columns
`0 <= j && j <= numFeature-1`. -/
def packZ (slotNum numCol numFeature batchSize : ℕ) (data : List (List K)) : Go (List K) :=
  forN batchSize (fun i z => forN numCol (fun j z => do
    if j < numFeature then
      let row ← idx data i
      let x ← idx row j
      upd z (numCol * i + j) x
    else upd z (numCol * i + j) 0) z) (List.replicate slotNum 0)

/-- `label_vector` of lr.go (lr/lr.go 146-152). -/
def packLabel (slotNum numCol batchSize : ℕ) (labels : List K) : Go (List K) :=
  forN batchSize (fun i z => forN numCol (fun j z => do
    let y ← idx labels i
    upd z (numCol * i + j) y) z) (List.replicate slotNum 0)

/-- `test_vector` (lr/lr.go 375-379). -/
def packTest (slotNum numFeature : ℕ) (row : List K) : Go (List K) :=
  forN numFeature (fun j z => do
    let x ← idx row j
    upd z j x) (List.replicate slotNum 0)

/-! ### Minibatches -/

/-- The batch shape (lr/lr_minibatch.go 130-139).  The code computes with float64 `Log2`, `Ceil`
and `Pow`; the results are the exact ones (C64_shape). -/
structure Shape where
  numSlots : ℕ
  numFeature : ℕ
  numTrain : ℕ
  batchSize : ℕ

namespace Shape

/-- `slotsPerData = 2^ceil(log2 numFeature)` (lr/lr_minibatch.go 130-131) -/
def slotsPerData (s : Shape) : ℕ := 2 ^ Nat.clog 2 s.numFeature

/-- `numDataPerCt` (lr/lr_minibatch.go 132) -/
def numDataPerCt (s : Shape) : ℕ := s.numSlots / s.slotsPerData

/-- `realnumDataPerCt` (lr/lr_minibatch.go 133-136) -/
def realnumDataPerCt (s : Shape) : ℕ := min s.numDataPerCt s.batchSize

/-- `numCtPerBatch` (lr/lr_minibatch.go 137) -/
def numCtPerBatch (s : Shape) : ℕ := (s.batchSize + s.numDataPerCt - 1) / s.numDataPerCt

/-- `numBatch` (lr/lr_minibatch.go 28) -/
def numBatch (s : Shape) : ℕ := s.numTrain / s.batchSize

/-- `dataId` (lr/lr_minibatch.go 149, 171) -/
def dataId (s : Shape) (b i j : ℕ) : ℕ :=
  b * s.numCtPerBatch * s.realnumDataPerCt + i * s.realnumDataPerCt + j

end Shape

/-- `for j := j0; j < j0 + n; j++ { if stop(j) { break }; s = body(j, s) }` -/
def forBreak {σ : Type} (n j : ℕ) (stop : ℕ → Bool) (body : ℕ → σ → Go σ) (s : σ) : Go σ :=
  match n with
  | 0 => .ok s
  | n + 1 => if stop j then .ok s else do
    let s ← body j s
    forBreak n (j + 1) stop body s

/-- `z_vector` of ciphertext `i` of batch `b` (lr/lr_minibatch.go 147-157). -/
def packBatchZ (s : Shape) (data : List (List K)) (b i : ℕ) : Go (List K) :=
  forBreak s.realnumDataPerCt 0 (fun j => s.dataId b i j ≥ s.numTrain) (fun j z =>
    forN s.numFeature (fun k z => do
      let row ← idx data (s.dataId b i j)
      let x ← idx row k
      upd z (j * s.slotsPerData + k) x) z) (List.replicate s.numSlots 0)

/-- `label_vector[b][i]` (lr/lr_minibatch.go 168-181). -/
def packBatchLabel (s : Shape) (labels : List K) (b i : ℕ) : Go (List K) :=
  forBreak s.realnumDataPerCt 0 (fun j => s.dataId b i j ≥ s.numTrain) (fun j z =>
    forN s.numFeature (fun k z => do
      let y ← idx labels (s.dataId b i j)
      upd z (j * s.slotsPerData + k) y) z) (List.replicate s.numSlots 0)

end MK.Lr
