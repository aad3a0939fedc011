import Verif.Gadget
import Verif.Ct
import Verif.Permute

/-!
# mkrlwe/keyswitch.go and mkrlwe/keyswitch_hoisted.go

The key switcher's scratch memory is explicit state.  Levels of operands: the rows up to the
level of `ctOut` of both operands are read; the Go code would index out of range if an operand
had fewer rows (theorems assume it has not).
-/

noncomputable section

namespace MK

variable {C : Ctx}

/-- The scratch memory of a `KeySwitcher` (mkrlwe/keyswitch.go 8-16, and `PoolInvNTT`, `Pool`
of the embedded `rlwe.KeySwitcher`). -/
structure KS (C : Ctx) where
  poolInv : RQ C
  pool0 : QP C
  pool1 : QP C
  pq0 : RQ C
  pq1 : RQ C
  pq2 : RQ C
  swk1 : SwKey C
  swk2 : SwKey C
  swk3 : SwKey C

/-- `NewKeySwitcher` (mkrlwe/keyswitch.go 33-47). -/
def KS.new : KS C :=
  ⟨RPoly.new C.nQ, QP.new, QP.new, RPoly.new C.nQ, RPoly.new C.nQ, RPoly.new C.nQ,
    SwKey.new, SwKey.new, SwKey.new⟩

/-- The part of the scratch state that later operations look at before writing: the flag and
the number of rows of `polyQPool[0]`. -/
structure KS.Ok (ks : KS C) : Prop where
  ntt : ks.pq0.isNTT = false
  len : ks.pq0.len = C.nQ

/-- A Go loop `for id := range m { s = body(id, s) }` in visiting order `o`. -/
def forEach {α σ : Type _} (o : List α) (body : α → σ → Go σ) (s : σ) : Go σ :=
  match o with
  | [] => .ok s
  | a :: o => do
    let s ← body a s
    forEach o body s

/-- `DecomposeAndSplit` (mkrlwe/basis_extension.go 428-535): digit `k` of `p0Q` modulo the
primes up to `levelQ` and `levelP`.  The word-level computation is `Verif/Word.lean`. -/
def decomposeAndSplit (levelQ levelP k : ℕ) (p0Q : RQ C) (out : QP C) : QP C :=
  let d := digit C levelQ (fun i => ⟨p0Q.row i⟩) k
  ⟨out.Q.readLvl levelQ d, out.P.readLvl levelP d⟩

/-- `DecomposeSingleNTT` (mkrlwe/keyswitch.go 21-31). -/
def decomposeSingleNTT (levelQ levelP k : ℕ) (c2InvNTT : RQ C) (out : QP C) : QP C :=
  let out := decomposeAndSplit levelQ levelP k c2InvNTT out
  ⟨out.Q.nttLvl C.nttQ levelQ out.Q, out.P.nttLvl C.nttP levelP out.P⟩

/-- Selection of the coefficient-form input (mkrlwe/keyswitch.go 54-61, 85-92): writes
`PoolInvNTT` only if the input is in NTT form.  Returns the scratch and the polynomial. -/
def KS.toCoeff (ks : KS C) (levelQ : ℕ) (a : RQ C) : KS C × RQ C :=
  if a.isNTT then
    let inv := a.invNttLvl C.nttQ levelQ ks.poolInv
    ({ ks with poolInv := inv }, inv)
  else (ks, a)

/-- `Decompose` (mkrlwe/keyswitch.go 49-73). -/
def KS.Decompose (ks : KS C) (levelQ : ℕ) (a : RQ C) (ad : SwKey C) : KS C × SwKey C :=
  let (ks, aInv) := ks.toCoeff levelQ a
  (ks, forLt (C.beta levelQ) (fun i ad => Function.update ad i
    (decomposeSingleNTT levelQ C.lp i aInv (ad i))) ad)

/-- `ModDownQPtoQ` with `levelP = PCount()-1` (mkrlwe/basis_extension.go 192-232), on
coefficient-form inputs.  In `ExternalProduct` the receiver is lattigo's
`ring.FastBasisExtender`, of which the repository's is a copy. -/
def modDownQPtoQ (levelQ : ℕ) (x : QP C) (out : RQ C) : RQ C :=
  out.write levelQ fun i =>
    (modDown C (fun i => ⟨x.Q.row i⟩) (fun j => ⟨x.P.row j⟩) i).coeff

/-- The end of both external products: InvNTT and ModDown (mkrlwe/keyswitch.go 114-117,
mkrlwe/keyswitch_hoisted.go 36-39). -/
def extFinish (levelQ : ℕ) (c1 : QP C) (c : RQ C) : QP C × RQ C :=
  let c1 : QP C := ⟨c1.Q.invNttLvl C.nttQ levelQ c1.Q, c1.P.invNttLvl C.nttP C.lp c1.P⟩
  (c1, modDownQPtoQ levelQ c1 c)

/-- `ExternalProduct` (mkrlwe/keyswitch.go 79-118).  Returns scratch and `c`. -/
def KS.ExternalProduct (ks : KS C) (levelQ : ℕ) (a : RQ C) (bg : SwKey C) (c : RQ C) :
    KS C × RQ C :=
  let (ks, aInv) := ks.toCoeff levelQ a
  let (c0, c1) := forLt (C.beta levelQ) (fun i (s : QP C × QP C) =>
    let c0 := decomposeSingleNTT levelQ C.lp i aInv s.1
    let c1 := if i = 0 then QP.mulMontLvl levelQ C.lp (bg i) c0 s.2
      else QP.mulMontAddLvl levelQ C.lp (bg i) c0 s.2
    (c0, c1)) (ks.pool0, ks.pool1)
  let (c1, c) := extFinish levelQ c1 c
  ({ ks with pool0 := c0, pool1 := c1 }, c)

/-- `ExternalProductHoisted` (mkrlwe/keyswitch_hoisted.go 10-40). -/
def KS.ExternalProductHoisted (ks : KS C) (levelQ : ℕ) (aHoisted bg : SwKey C) (c : RQ C) :
    KS C × RQ C :=
  let c1 := forLt (C.beta levelQ) (fun i (c1 : QP C) =>
    if i = 0 then QP.mulMontLvl levelQ C.lp (bg i) (aHoisted i) c1
      else QP.mulMontAddLvl levelQ C.lp (bg i) (aHoisted i) c1) ks.pool1
  let (c1, c) := extFinish levelQ c1 c
  ({ ks with pool1 := c1 }, c)

/-! ## Multiplication -/

/-- `HoistedCiphertext` (mkrlwe/elements.go 5-15). -/
abbrev HoistedCt (C : Ctx) := GoMap String (SwKey C)

/-- The visiting orders of the `range` loops of `MulAndRelin(Hoisted)`: the two `IDSet()`
calls, the `x` and `y` loops, the three tensor loops, and the two key-switching loops. -/
structure MulOrd where
  i0 : List String
  i1 : List String
  x : List String
  y : List String
  t0 : List String
  t1 : List String
  inv : List String
  e1 : List String
  e0 : List String

/-- `for i < beta { MulCoeffsMontgomeryAndAddLvl(d[i], h[i], x[i]) }`
(mkrlwe/keyswitch.go 160-162, 173-175; mkrlwe/keyswitch_hoisted.go 83-85, 88-90, 103-105,
108-110). -/
def mulAcc (level : ℕ) (d h x : SwKey C) : SwKey C :=
  forLt (C.beta level) (fun i x => Function.update x i
    (QP.mulMontAddLvl level C.lp (d i) (h i) (x i))) x

/-- `for i < beta { MFormLvl(x[i], x[i]) }` (mkrlwe/keyswitch.go 165-167, 178-180;
mkrlwe/keyswitch_hoisted.go 94-96, 115-117). -/
def mformAll (level : ℕ) (x : SwKey C) : SwKey C :=
  forLt (C.beta level) (fun i x => Function.update x i
    (QP.mformLvl level C.lp (x i) (x i))) x

/-- The clearing loop (mkrlwe/keyswitch.go 148-154; mkrlwe/keyswitch_hoisted.go 70-76). -/
def zeroAll (level : ℕ) (x : SwKey C) : SwKey C :=
  forLt (C.beta level) (fun i x => Function.update x i (⟨(x i).Q.zero, (x i).P.zero⟩ : QP C)) x

/-- The digits of component `id`: computed into `swkPool3`, or read from the hoisted form
(mkrlwe/keyswitch.go 158, 171; mkrlwe/keyswitch_hoisted.go 80-91, 100-111). -/
def KS.getDigits (ks : KS C) (level : ℕ) (op : Ct C) (hoisted : Option (HoistedCt C))
    (id : String) : Go (KS C × SwKey C) :=
  match hoisted with
  | none => do
    let a ← op.value.deref id
    let (ks, s3) := ks.Decompose level a ks.swk3
    return ({ ks with swk3 := s3 }, s3)
  | some H => do
    let h ← H.deref id
    return (ks, h)

/-- One iteration of the loop building `x` from the `d` keys (mkrlwe/keyswitch.go 157-163;
mkrlwe/keyswitch_hoisted.go 79-92). -/
def KS.xStep {η : Type _} (level : ℕ) (op0 : Ct C) (h0 : Option (HoistedCt C))
    (rlk : RelinKeySet (RelinKey C) η) (id : String) (ks : KS C) : Go (KS C) := do
  let (ks, h) ← ks.getDigits level op0 h0 id
  let k ← rlk.value.deref id
  return { ks with swk1 := mulAcc level k.d h ks.swk1 }

/-- One iteration of the loop building `y` from the `b` keys (mkrlwe/keyswitch.go 170-176;
mkrlwe/keyswitch_hoisted.go 99-113). -/
def KS.yStep {η : Type _} (level : ℕ) (op1 : Ct C) (h1 : Option (HoistedCt C))
    (rlk : RelinKeySet (RelinKey C) η) (id : String) (ks : KS C) : Go (KS C) := do
  let (ks, h) ← ks.getDigits level op1 h1 id
  let k ← rlk.value.deref id
  return { ks with swk2 := mulAcc level k.b h ks.swk2 }

/-- `ctOut_j <- op1_0 * op0_j` (mkrlwe/keyswitch.go 191-194; mkrlwe/keyswitch_hoisted.go
128-131). -/
def KS.t0Step (level : ℕ) (op0 : Ct C) (id : String) (s : KS C × Ct C) : Go (KS C × Ct C) := do
  let (ks, out) := s
  let a ← op0.value.deref id
  let ks := { ks with pq2 := a.nttLvl C.nttQ level ks.pq2 }
  let o ← out.value.deref id
  return (ks, ⟨out.value.set id (RPoly.mulMontLvl level ks.pq1 ks.pq2 o)⟩)

/-- `ctOut_j (+)= op0_0 * op1_j` (mkrlwe/keyswitch.go 196-203; mkrlwe/keyswitch_hoisted.go
133-140). -/
def KS.t1Step (level : ℕ) (op1 : Ct C) (idset0 : IDSet) (id : String) (s : KS C × Ct C) :
    Go (KS C × Ct C) := do
  let (ks, out) := s
  let a ← op1.value.deref id
  let ks := { ks with pq2 := a.nttLvl C.nttQ level ks.pq2 }
  let o ← out.value.deref id
  return (ks, ⟨out.value.set id (if idset0.Has id then RPoly.mulMontAddLvl level ks.pq0 ks.pq2 o
    else RPoly.mulMontLvl level ks.pq0 ks.pq2 o)⟩)

/-- `InvNTT` of every component (mkrlwe/keyswitch.go 205-207; mkrlwe/keyswitch_hoisted.go
142-144). -/
def invStep (level : ℕ) (id : String) (out : Ct C) : Go (Ct C) := do
  let o ← out.value.deref id
  return ⟨out.value.set id (o.invNttLvl C.nttQ level o)⟩

/-- The external product of component `id` (hoisted or not) with a key into `polyQPool[0]`
(mkrlwe/keyswitch.go 211, 222; mkrlwe/keyswitch_hoisted.go 148-152, 165-169). -/
def KS.extComp (ks : KS C) (level : ℕ) (op : Ct C) (hoisted : Option (HoistedCt C))
    (id : String) (key : SwKey C) : Go (KS C) :=
  match hoisted with
  | none => do
    let a ← op.value.deref id
    let (ks, c) := ks.ExternalProduct level a key ks.pq0
    return { ks with pq0 := c }
  | some H => do
    let h ← H.deref id
    let (ks, c) := ks.ExternalProductHoisted level h key ks.pq0
    return { ks with pq0 := c }

/-- `ctOut_j <- ctOut_j + Ext(op1_j, x)` (mkrlwe/keyswitch.go 210-213;
mkrlwe/keyswitch_hoisted.go 147-154). -/
def KS.e1Step (level : ℕ) (op1 : Ct C) (h1 : Option (HoistedCt C)) (id : String)
    (s : KS C × Ct C) : Go (KS C × Ct C) := do
  let (ks, out) := s
  let ks ← ks.extComp level op1 h1 id ks.swk1
  let o ← out.value.deref id
  return (ks, ⟨out.value.set id (RPoly.addLvl level o ks.pq0 o)⟩)

/-- The two external products of `polyQPool[0]` with `v` and `u`, added to components `"0"`
and `id`, without hoisting (mkrlwe/keyswitch.go 224-228). -/
def KS.lastPlain (crs : CRS C) (level : ℕ) (v : SwKey C) (id : String) (s : KS C × Ct C) :
    Go (KS C × Ct C) := do
  let (ks, out) := s
  let (ks, c) := ks.ExternalProduct level ks.pq0 v ks.pq1
  let ks := { ks with pq1 := c }
  let o0 ← out.value.deref "0"
  let out : Ct C := ⟨out.value.set "0" (RPoly.addLvl level o0 ks.pq1 o0)⟩
  let u ← crs.deref (-1)
  let (ks, c) := ks.ExternalProduct level ks.pq0 u ks.pq2
  let ks := { ks with pq2 := c }
  let o ← out.value.deref id
  return (ks, ⟨out.value.set id (RPoly.addLvl level o ks.pq2 o)⟩)

/-- The same with one shared decomposition (mkrlwe/keyswitch_hoisted.go 171-177). -/
def KS.lastHoisted (crs : CRS C) (level : ℕ) (v : SwKey C) (id : String) (s : KS C × Ct C) :
    Go (KS C × Ct C) := do
  let (ks, out) := s
  let (ks, s3) := ks.Decompose level ks.pq0 ks.swk3
  let ks := { ks with swk3 := s3 }
  let (ks, c) := ks.ExternalProductHoisted level ks.swk3 v ks.pq1
  let ks := { ks with pq1 := c }
  let o0 ← out.value.deref "0"
  let out : Ct C := ⟨out.value.set "0" (RPoly.addLvl level o0 ks.pq1 o0)⟩
  let u ← crs.deref (-1)
  let (ks, c) := ks.ExternalProductHoisted level ks.swk3 u ks.pq2
  let ks := { ks with pq2 := c }
  let o ← out.value.deref id
  return (ks, ⟨out.value.set id (RPoly.addLvl level o ks.pq2 o)⟩)

/-- One iteration of the final loop (mkrlwe/keyswitch.go 220-229;
mkrlwe/keyswitch_hoisted.go 161-178). -/
def KS.e0Step {η : Type _} (last : SwKey C → String → KS C × Ct C → Go (KS C × Ct C))
    (level : ℕ) (op0 : Ct C) (h0 : Option (HoistedCt C)) (rlk : RelinKeySet (RelinKey C) η)
    (id : String) (s : KS C × Ct C) : Go (KS C × Ct C) := do
  let (ks, out) := s
  let k ← rlk.value.deref id
  let ks ← ks.extComp level op0 h0 id ks.swk2
  last k.v id (ks, out)

/-- The common text of `MulAndRelin` and `MulAndRelinHoisted` (mkrlwe/keyswitch.go 122-230;
mkrlwe/keyswitch_hoisted.go 44-179); they differ in where the digits
come from and in the final loop. -/
def KS.mulCore {η : Type _} (last : ℕ → SwKey C → String → KS C × Ct C → Go (KS C × Ct C))
    (ks : KS C) (op0 op1 : Ct C) (h0 h1 : Option (HoistedCt C))
    (rlk : RelinKeySet (RelinKey C) η) (ctOut : Ct C) (o : MulOrd) : Go (KS C × Ct C) := do
  let level ← ctOut.Level
  let l0 ← op0.Level
  if l0 < level then
    .error (.msg "Cannot MulAndRelin: op0 and op1 have different levels")
  else
    let idset0 ← op0.IDSet o.i0
    let _ ← op1.IDSet o.i1
    let ks := { ks with swk1 := zeroAll level ks.swk1, swk2 := zeroAll level ks.swk2 }
    let ks ← forEach o.x (KS.xStep level op0 h0 rlk) ks
    let ks := { ks with swk1 := mformAll level ks.swk1 }
    let ks ← forEach o.y (KS.yStep level op1 h1 rlk) ks
    let ks := { ks with swk2 := mformAll level ks.swk2 }
    let a0 ← op0.value.deref "0"
    let a1 ← op1.value.deref "0"
    let ks := { ks with pq0 := a0.nttLvl C.nttQ level ks.pq0 }
    let ks := { ks with pq1 := a1.nttLvl C.nttQ level ks.pq1 }
    let ks := { ks with pq0 := ks.pq0.mformLvl level ks.pq0 }
    let o0 ← ctOut.value.deref "0"
    let out : Ct C := ⟨ctOut.value.set "0" (RPoly.mulMontLvl level ks.pq0 ks.pq1 o0)⟩
    let ks := { ks with pq1 := ks.pq1.mformLvl level ks.pq1 }
    let (ks, out) ← forEach o.t0 (KS.t0Step level op0) (ks, out)
    let (ks, out) ← forEach o.t1 (KS.t1Step level op1 idset0) (ks, out)
    let out ← forEach o.inv (invStep level) out
    let (ks, out) ← forEach o.e1 (KS.e1Step level op1 h1) (ks, out)
    forEach o.e0 (KS.e0Step (last level) level op0 h0 rlk) (ks, out)

/-- `MulAndRelin` (mkrlwe/keyswitch.go 122-230).  The second level check of the Go code
compares `ctOut.Level()` with itself and is omitted. -/
def KS.MulAndRelin {η : Type _} (crs : CRS C) (ks : KS C) (op0 op1 : Ct C)
    (rlk : RelinKeySet (RelinKey C) η) (ctOut : Ct C) (o : MulOrd) : Go (KS C × Ct C) :=
  ks.mulCore (KS.lastPlain crs) op0 op1 none none rlk ctOut o

/-- `MulAndRelinHoisted` (mkrlwe/keyswitch_hoisted.go 44-179). -/
def KS.MulAndRelinHoisted {η : Type _} (crs : CRS C) (ks : KS C) (op0 op1 : Ct C)
    (h0 h1 : Option (HoistedCt C)) (rlk : RelinKeySet (RelinKey C) η) (ctOut : Ct C)
    (o : MulOrd) : Go (KS C × Ct C) :=
  ks.mulCore (KS.lastHoisted crs) op0 op1 h0 h1 rlk ctOut o

/-! ## Rotation and conjugation -/

/-- The coefficient permutation loop (mkrlwe/keyswitch.go 270-292;
mkrlwe/keyswitch_hoisted.go 219-241; lattigo `ring.Permute`) on the rows up to `level`. -/
def permuteLvl (level g : ℕ) (a out : RQ C) : RQ C :=
  out.write level fun i => permRow g (a.row i) (out.row i)

/-- One iteration of the permutation of the components (mkrlwe/keyswitch.go 268-296). -/
def KS.permStep (level g : ℕ) (id : String) (s : KS C × Ct C) : Go (KS C × Ct C) := do
  let (ks, out) := s
  let c ← out.value.deref id
  let ks := { ks with pq0 := permuteLvl level g c ks.pq0 }
  return (ks, ⟨out.value.set id (ks.pq0.copy c)⟩)

/-- One iteration of the key-switching loop of `Rotate(Hoisted)` (mkrlwe/keyswitch.go 258-264;
mkrlwe/keyswitch_hoisted.go 207-213).  `extp` is the external product used for component
`id`. -/
def KS.rotStep (extp : KS C → String → SwKey C → RQ C → Go (KS C × RQ C)) (crs : CRS C)
    (level : ℕ) (rotidx : ℤ) (rkSet : RotationKeySet (RotKey C)) (id : String)
    (s : KS C × Ct C) : Go (KS C × Ct C) := do
  let (ks, out) := s
  let rk ← rkSet.get id rotidx.toNat
  let (ks, c) ← extp ks id rk.value ks.pq0
  let ks := { ks with pq0 := c }
  let o0 ← out.value.deref "0"
  let out : Ct C := ⟨out.value.set "0" (RPoly.addLvl level o0 ks.pq0 o0)⟩
  let a ← crs.deref rotidx
  let o ← out.value.deref id
  let (ks, c) ← extp ks id a o
  return (ks, ⟨out.value.set id c⟩)

/-- The visiting orders of `Rotate`/`Conjugate`. -/
structure RotOrd where
  i : List String
  k : List String
  k2 : List String
  p : List String

/-- Common text of `Rotate` and `RotateHoisted` (mkrlwe/keyswitch.go 234-298;
mkrlwe/keyswitch_hoisted.go 183-247). -/
def KS.rotCore (extp : ℕ → KS C → String → SwKey C → RQ C → Go (KS C × RQ C)) (crs : CRS C)
    (ks : KS C) (ctIn : Ct C) (rotidx : ℤ) (rkSet : RotationKeySet (RotKey C)) (ctOut : Ct C)
    (o : RotOrd) : Go (KS C × Ct C) := do
  let level ← ctOut.Level
  let _ ← ctIn.IDSet o.i
  let l0 ← ctIn.Level
  if l0 < level then
    .error (.msg "Cannot Rotate: ctIn and ctOut have different levels")
  else
    let rotidx := normRot (C.N / 2) rotidx
    let i0 ← ctIn.value.deref "0"
    let o0 ← ctOut.value.deref "0"
    let out : Ct C := ⟨ctOut.value.set "0" (i0.copy o0)⟩
    let (ks, out) ← forEach o.k (KS.rotStep (extp level) crs level rotidx rkSet) (ks, out)
    let galEl := galCol C.N rotidx.toNat
    forEach o.p (KS.permStep level galEl) (ks, out)

/-- `Rotate` (mkrlwe/keyswitch.go 234-298). -/
def KS.Rotate (crs : CRS C) (ks : KS C) (ctIn : Ct C) (rotidx : ℤ)
    (rkSet : RotationKeySet (RotKey C)) (ctOut : Ct C) (o : RotOrd) : Go (KS C × Ct C) :=
  KS.rotCore (fun level ks id key c => do
    let a ← ctIn.value.deref id
    return ks.ExternalProduct level a key c) crs ks ctIn rotidx rkSet ctOut o

/-- `RotateHoisted` (mkrlwe/keyswitch_hoisted.go 183-247). -/
def KS.RotateHoisted (crs : CRS C) (ks : KS C) (ctIn : Ct C) (rotidx : ℤ) (H : HoistedCt C)
    (rkSet : RotationKeySet (RotKey C)) (ctOut : Ct C) (o : RotOrd) : Go (KS C × Ct C) :=
  KS.rotCore (fun level ks id key c => do
    let h ← H.deref id
    return ks.ExternalProductHoisted level h key c) crs ks ctIn rotidx rkSet ctOut o

/-- `ringQ.Permute(in, g, out)` of lattigo v2.3.0: loops over *all* moduli of the ring, so it
indexes out of range when a polynomial has fewer rows. -/
def permuteFull (g : ℕ) (a out : RQ C) : Go (RQ C) :=
  if a.len < C.nQ ∨ out.len < C.nQ then .error .indexRange
  else .ok (permuteLvl C.lq g a out)

/-- Permutation in `Conjugate` (mkrlwe/keyswitch.go 315-317). -/
def conjPermStep (ctIn : Ct C) (id : String) (out : Ct C) : Go (Ct C) := do
  let a ← ctIn.value.deref id
  let o ← out.value.deref id
  let p ← permuteFull (galRow C.N) a o
  return ⟨out.value.set id p⟩

/-- Key switching in `Conjugate` (mkrlwe/keyswitch.go 320-324). -/
def KS.conjKeyStep (level : ℕ) (ckSet : KeySet (ConjKey C)) (id : String) (s : KS C × Ct C) :
    Go (KS C × Ct C) := do
  let (ks, out) := s
  let ck ← ckSet.get id
  let a ← out.value.deref id
  let (ks, c) := ks.ExternalProduct level a ck.value ks.pq0
  let ks := { ks with pq0 := c }
  let o0 ← out.value.deref "0"
  return (ks, ⟨out.value.set "0" (RPoly.addLvl level o0 ks.pq0 o0)⟩)

/-- Key switching in `Conjugate` (mkrlwe/keyswitch.go 327-331). -/
def KS.conjCrsStep (crs : CRS C) (level : ℕ) (id : String) (s : KS C × Ct C) :
    Go (KS C × Ct C) := do
  let (ks, out) := s
  let a ← out.value.deref id
  let u ← crs.deref (-2)
  let (ks, c) := ks.ExternalProduct level a u ks.pq0
  let ks := { ks with pq0 := c }
  return (ks, ⟨out.value.set id (ks.pq0.copy a)⟩)

/-- `Conjugate` (mkrlwe/keyswitch.go 302-332). -/
def KS.Conjugate (crs : CRS C) (ks : KS C) (ctIn : Ct C) (ckSet : KeySet (ConjKey C))
    (ctOut : Ct C) (o : RotOrd) : Go (KS C × Ct C) := do
  let level ← ctOut.Level
  let _ ← ctIn.IDSet o.i
  let l0 ← ctIn.Level
  if l0 < level then
    .error (.msg "Cannot Conjugate: ctIn and ctOut have different levels")
  else
    let out ← forEach o.p (conjPermStep ctIn) ctOut
    let (ks, out) ← forEach o.k (KS.conjKeyStep level ckSet) (ks, out)
    forEach o.k2 (KS.conjCrsStep crs level) (ks, out)

end MK
