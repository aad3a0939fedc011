import Verif.HeapEval
import Verif.CDec

/-!
# Key switching and decryption on pointers

Continues `Verif/Heap.lean`: multiplication, rotation, conjugation, hoisting and decryption, with
ciphertexts as addresses.  The scratch of the key switcher, keys, hoisted forms and plaintexts are
values.
-/

noncomputable section

namespace MK

variable {C : Ctx} {α β σ τ η : Type}

/-- The visiting orders of a multiplication, from the keys of the three maps (see `Sched.mulOrd`). -/
def Sched.mulOrdK (π : Sched) (k0 k1 k : List String) : MulOrd where
  i0 := π.f 0 k0
  i1 := π.f 1 k1
  x := π.f 2 (k0.filter (· ≠ "0"))
  y := π.f 3 (k1.filter (· ≠ "0"))
  t0 := π.f 4 (k0.filter (· ≠ "0"))
  t1 := π.f 5 (k1.filter (· ≠ "0"))
  inv := π.f 6 k
  e1 := π.f 7 (k1.filter (· ≠ "0"))
  e0 := π.f 8 (k0.filter (· ≠ "0"))

/-- The visiting orders of a rotation, from the keys of the input (see `Sched.rotOrd`). -/
def Sched.rotOrdK (π : Sched) (k : List String) : RotOrd where
  i := π.f 0 k
  k := π.f 1 (k.filter (· ≠ "0"))
  k2 := π.f 2 (k.filter (· ≠ "0"))
  p := π.f 3 k

namespace Mem

/-! ## mkrlwe/keyswitch.go and mkrlwe/keyswitch_hoisted.go -/

/-- The digits of component `id` of `a` (mkrlwe/keyswitch.go 158, 171; mkrlwe/keyswitch_hoisted.go
80-91, 100-111). -/
def getDigits (ks : KS C) (level : ℕ) (a : ℕ) (hoisted : Option (HoistedCt C)) (id : String) :
    HM C (KS C × SwKey C) :=
  match hoisted with
  | none => do
    let v ← load a id
    let (ks, s3) := ks.Decompose level v ks.swk3
    return ({ ks with swk3 := s3 }, s3)
  | some H => do
    let h ← lift (H.deref id)
    return (ks, h)

/-- The loop building `x` (mkrlwe/keyswitch.go 157-163; mkrlwe/keyswitch_hoisted.go 79-92). -/
def xStep (level : ℕ) (a0 : ℕ) (h0 : Option (HoistedCt C)) (rlk : RelinKeySet (RelinKey C) η)
    (id : String) (ks : KS C) : HM C (KS C) := do
  let (ks, h) ← getDigits ks level a0 h0 id
  let k ← lift (rlk.value.deref id)
  return { ks with swk1 := mulAcc level k.d h ks.swk1 }

/-- The loop building `y` (mkrlwe/keyswitch.go 170-176; mkrlwe/keyswitch_hoisted.go 99-113). -/
def yStep (level : ℕ) (a1 : ℕ) (h1 : Option (HoistedCt C)) (rlk : RelinKeySet (RelinKey C) η)
    (id : String) (ks : KS C) : HM C (KS C) := do
  let (ks, h) ← getDigits ks level a1 h1 id
  let k ← lift (rlk.value.deref id)
  return { ks with swk2 := mulAcc level k.b h ks.swk2 }

/-- `ctOut_j <- op1_0 * op0_j` (mkrlwe/keyswitch.go 191-194; mkrlwe/keyswitch_hoisted.go 128-131). -/
def t0Step (level : ℕ) (a0 b : ℕ) (id : String) (ks : KS C) : HM C (KS C) := do
  let v ← load a0 id
  let ks := { ks with pq2 := v.nttLvl C.nttQ level ks.pq2 }
  let o ← load b id
  store b id (RPoly.mulMontLvl level ks.pq1 ks.pq2 o)
  return ks

/-- `ctOut_j (+)= op0_0 * op1_j` (mkrlwe/keyswitch.go 196-203; mkrlwe/keyswitch_hoisted.go 133-140). -/
def t1Step (level : ℕ) (a1 b : ℕ) (idset0 : IDSet) (id : String) (ks : KS C) : HM C (KS C) := do
  let v ← load a1 id
  let ks := { ks with pq2 := v.nttLvl C.nttQ level ks.pq2 }
  let o ← load b id
  store b id (if idset0.Has id then RPoly.mulMontAddLvl level ks.pq0 ks.pq2 o
    else RPoly.mulMontLvl level ks.pq0 ks.pq2 o)
  return ks

/-- `InvNTT` of every component (mkrlwe/keyswitch.go 205-207; mkrlwe/keyswitch_hoisted.go 142-144). -/
def invStep (level : ℕ) (b : ℕ) (id : String) (_ : Unit) : HM C Unit := do
  let o ← load b id
  store b id (o.invNttLvl C.nttQ level o)

/-- The external product of component `id` of `a` with a key into `polyQPool[0]`
(mkrlwe/keyswitch.go 211, 222; mkrlwe/keyswitch_hoisted.go 148-152, 165-169). -/
def extComp (ks : KS C) (level : ℕ) (a : ℕ) (hoisted : Option (HoistedCt C)) (id : String)
    (key : SwKey C) : HM C (KS C) :=
  match hoisted with
  | none => do
    let v ← load a id
    let (ks, c) := ks.ExternalProduct level v key ks.pq0
    return { ks with pq0 := c }
  | some H => do
    let h ← lift (H.deref id)
    let (ks, c) := ks.ExternalProductHoisted level h key ks.pq0
    return { ks with pq0 := c }

/-- `ctOut_j <- ctOut_j + Ext(op1_j, x)` (mkrlwe/keyswitch.go 210-213; mkrlwe/keyswitch_hoisted.go
147-154). -/
def e1Step (level : ℕ) (a1 b : ℕ) (h1 : Option (HoistedCt C)) (id : String) (ks : KS C) :
    HM C (KS C) := do
  let ks ← extComp ks level a1 h1 id ks.swk1
  let o ← load b id
  store b id (RPoly.addLvl level o ks.pq0 o)
  return ks

/-- See `KS.lastPlain` (mkrlwe/keyswitch.go 224-228). -/
def lastPlain (crs : CRS C) (b : ℕ) (level : ℕ) (v : SwKey C) (id : String) (ks : KS C) :
    HM C (KS C) := do
  let (ks, c) := ks.ExternalProduct level ks.pq0 v ks.pq1
  let ks := { ks with pq1 := c }
  let o0 ← load b "0"
  store b "0" (RPoly.addLvl level o0 ks.pq1 o0)
  let u ← lift (crs.deref (-1))
  let (ks, c) := ks.ExternalProduct level ks.pq0 u ks.pq2
  let ks := { ks with pq2 := c }
  let o ← load b id
  store b id (RPoly.addLvl level o ks.pq2 o)
  return ks

/-- See `KS.lastHoisted` (mkrlwe/keyswitch_hoisted.go 171-177). -/
def lastHoisted (crs : CRS C) (b : ℕ) (level : ℕ) (v : SwKey C) (id : String) (ks : KS C) :
    HM C (KS C) := do
  let (ks, s3) := ks.Decompose level ks.pq0 ks.swk3
  let ks := { ks with swk3 := s3 }
  let (ks, c) := ks.ExternalProductHoisted level ks.swk3 v ks.pq1
  let ks := { ks with pq1 := c }
  let o0 ← load b "0"
  store b "0" (RPoly.addLvl level o0 ks.pq1 o0)
  let u ← lift (crs.deref (-1))
  let (ks, c) := ks.ExternalProductHoisted level ks.swk3 u ks.pq2
  let ks := { ks with pq2 := c }
  let o ← load b id
  store b id (RPoly.addLvl level o ks.pq2 o)
  return ks

/-- One iteration of the final loop (mkrlwe/keyswitch.go 220-229; mkrlwe/keyswitch_hoisted.go
161-178). -/
def e0Step (last : SwKey C → String → KS C → HM C (KS C)) (level : ℕ) (a0 : ℕ)
    (h0 : Option (HoistedCt C)) (rlk : RelinKeySet (RelinKey C) η) (id : String) (ks : KS C) :
    HM C (KS C) := do
  let k ← lift (rlk.value.deref id)
  let ks ← extComp ks level a0 h0 id ks.swk2
  last k.v id ks

/-- The common text of `MulAndRelin` and `MulAndRelinHoisted` (mkrlwe/keyswitch.go 122-230,
mkrlwe/keyswitch_hoisted.go 44-179), see `KS.mulCore`. -/
def mulCore (last : ℕ → SwKey C → String → KS C → HM C (KS C)) (ks : KS C) (a0 a1 : ℕ)
    (h0 h1 : Option (HoistedCt C)) (rlk : RelinKeySet (RelinKey C) η) (b : ℕ) (o : MulOrd) :
    HM C (KS C) := do
  let level ← level b
  let l0 ← Mem.level a0
  if l0 < level then
    lift (.error (.msg "Cannot MulAndRelin: op0 and op1 have different levels"))
  else
    let idset0 ← idSet o.i0
    let _ ← idSet o.i1
    let ks := { ks with swk1 := zeroAll level ks.swk1, swk2 := zeroAll level ks.swk2 }
    let ks ← forEach o.x (xStep level a0 h0 rlk) ks
    let ks := { ks with swk1 := mformAll level ks.swk1 }
    let ks ← forEach o.y (yStep level a1 h1 rlk) ks
    let ks := { ks with swk2 := mformAll level ks.swk2 }
    let v0 ← load a0 "0"
    let v1 ← load a1 "0"
    let ks := { ks with pq0 := v0.nttLvl C.nttQ level ks.pq0 }
    let ks := { ks with pq1 := v1.nttLvl C.nttQ level ks.pq1 }
    let ks := { ks with pq0 := ks.pq0.mformLvl level ks.pq0 }
    let o0 ← load b "0"
    store b "0" (RPoly.mulMontLvl level ks.pq0 ks.pq1 o0)
    let ks := { ks with pq1 := ks.pq1.mformLvl level ks.pq1 }
    let ks ← forEach o.t0 (t0Step level a0 b) ks
    let ks ← forEach o.t1 (t1Step level a1 b idset0) ks
    forEach o.inv (invStep level b) ()
    let ks ← forEach o.e1 (e1Step level a1 b h1) ks
    forEach o.e0 (e0Step (last level) level a0 h0 rlk) ks

/-- One iteration of the permutation of the components (mkrlwe/keyswitch.go 268-296). -/
def permStep (level g : ℕ) (b : ℕ) (id : String) (ks : KS C) : HM C (KS C) := do
  let c ← load b id
  let ks := { ks with pq0 := permuteLvl level g c ks.pq0 }
  let c ← load b id
  store b id (ks.pq0.copy c)
  return ks

/-- One iteration of the key-switching loop of `Rotate(Hoisted)` (mkrlwe/keyswitch.go 258-264;
mkrlwe/keyswitch_hoisted.go 207-213). -/
def rotStep (extp : KS C → String → SwKey C → RQ C → HM C (KS C × RQ C)) (crs : CRS C) (level : ℕ)
    (rotidx : ℤ) (rkSet : RotationKeySet (RotKey C)) (b : ℕ) (id : String) (ks : KS C) :
    HM C (KS C) := do
  let rk ← lift (rkSet.get id rotidx.toNat)
  let (ks, c) ← extp ks id rk.value ks.pq0
  let ks := { ks with pq0 := c }
  let o0 ← load b "0"
  store b "0" (RPoly.addLvl level o0 ks.pq0 o0)
  let a ← lift (crs.deref rotidx)
  let o ← load b id
  let (ks, c) ← extp ks id a o
  store b id c
  return ks

/-- Common text of `Rotate` and `RotateHoisted` (mkrlwe/keyswitch.go 234-298,
mkrlwe/keyswitch_hoisted.go 183-247), see `KS.rotCore`. -/
def rotCore (extp : ℕ → KS C → String → SwKey C → RQ C → HM C (KS C × RQ C)) (crs : CRS C)
    (ks : KS C) (a : ℕ) (rotidx : ℤ) (rkSet : RotationKeySet (RotKey C)) (b : ℕ) (o : RotOrd) :
    HM C (KS C) := do
  let level ← level b
  let _ ← idSet o.i
  let l0 ← Mem.level a
  if l0 < level then
    lift (.error (.msg "Cannot Rotate: ctIn and ctOut have different levels"))
  else
    let rotidx := normRot (C.N / 2) rotidx
    let i0 ← load a "0"
    let o0 ← load b "0"
    store b "0" (i0.copy o0)
    let ks ← forEach o.k (rotStep (extp level) crs level rotidx rkSet b) ks
    let galEl := galCol C.N rotidx.toNat
    forEach o.p (permStep level galEl b) ks

/-- `Rotate` (mkrlwe/keyswitch.go 234-298). -/
def ksRotate (crs : CRS C) (ks : KS C) (a : ℕ) (rotidx : ℤ) (rkSet : RotationKeySet (RotKey C))
    (b : ℕ) (o : RotOrd) : HM C (KS C) :=
  rotCore (fun level ks id key c => do
    let v ← load a id
    return ks.ExternalProduct level v key c) crs ks a rotidx rkSet b o

/-- `RotateHoisted` (mkrlwe/keyswitch_hoisted.go 183-247). -/
def ksRotateHoisted (crs : CRS C) (ks : KS C) (a : ℕ) (rotidx : ℤ) (H : HoistedCt C)
    (rkSet : RotationKeySet (RotKey C)) (b : ℕ) (o : RotOrd) : HM C (KS C) :=
  rotCore (fun level ks id key c => do
    let h ← lift (H.deref id)
    return ks.ExternalProductHoisted level h key c) crs ks a rotidx rkSet b o

/-- Lines 315-317 of `Conjugate` (mkrlwe/keyswitch.go). -/
def conjPermStep (a b : ℕ) (id : String) (_ : Unit) : HM C Unit := do
  let v ← load a id
  let o ← load b id
  let p ← lift (permuteFull (galRow C.N) v o)
  store b id p

/-- Lines 320-324 of `Conjugate` (mkrlwe/keyswitch.go). -/
def conjKeyStep (level : ℕ) (ckSet : KeySet (ConjKey C)) (b : ℕ) (id : String) (ks : KS C) :
    HM C (KS C) := do
  let ck ← lift (ckSet.get id)
  let a ← load b id
  let (ks, c) := ks.ExternalProduct level a ck.value ks.pq0
  let ks := { ks with pq0 := c }
  let o0 ← load b "0"
  store b "0" (RPoly.addLvl level o0 ks.pq0 o0)
  return ks

/-- Lines 327-331 of `Conjugate` (mkrlwe/keyswitch.go). -/
def conjCrsStep (crs : CRS C) (level : ℕ) (b : ℕ) (id : String) (ks : KS C) : HM C (KS C) := do
  let a ← load b id
  let u ← lift (crs.deref (-2))
  let (ks, c) := ks.ExternalProduct level a u ks.pq0
  let ks := { ks with pq0 := c }
  let a ← load b id
  store b id (ks.pq0.copy a)
  return ks

/-- `Conjugate` (mkrlwe/keyswitch.go 302-332). -/
def ksConjugate (crs : CRS C) (ks : KS C) (a : ℕ) (ckSet : KeySet (ConjKey C)) (b : ℕ) (o : RotOrd) :
    HM C (KS C) := do
  let level ← level b
  let _ ← idSet o.i
  let l0 ← Mem.level a
  if l0 < level then
    lift (.error (.msg "Cannot Conjugate: ctIn and ctOut have different levels"))
  else
    forEach o.p (conjPermStep a b) ()
    let ks ← forEach o.k (conjKeyStep level ckSet b) ks
    forEach o.k2 (conjCrsStep crs level b) ks

/-! ## mkckks/evaluator.go -/

/-- `mulRelinHoisted` (mkckks/evaluator.go 570-581); `y` is `ctOut`. -/
def mulRelinHoisted (prm : CPar C) (ev : HEv C) (x0 x1 : ℕ) (h0 h1 : Option (HoistedCt C))
    (rlk : RlkSet C) (y : ℕ) (π : Sched) : HM C (HEv C) := do
  let a0 ← ctOf x0
  let a1 ← ctOf x1
  let b ← ctOf y
  let l0 ← level a0
  let l1 ← level a1
  let lo ← level b
  let level := min (min l0 l1) lo
  let k ← keysOf b
  let _ ← if level < lo then dropLevel b (lo - level) (π.f 0 k) else pure ()
  let s0 ← scaleOf x0
  let s1 ← scaleOf x1
  setScale y (prm.fl.rnd (s0 * s1))
  let k0 ← keysOf a0
  let k1 ← keysOf a1
  let k ← keysOf b
  let ks ← mulCore (lastHoisted prm.crs b) ev.ksw a0 a1 h0 h1 rlk b ((π.sub 1).mulOrdK k0 k1 k)
  let _ ← Rescale prm { ev with ksw := ks } y prm.scale y (π.sub 2)
  return { ev with ksw := ks }

/-- `MulRelinHoistedNew` (mkckks/evaluator.go 558-564). -/
def MulRelinHoistedNew (prm : CPar C) (ev : HEv C) (x0 x1 : ℕ) (h0 h1 : Option (HoistedCt C))
    (rlk : RlkSet C) (π : Sched) : HM C (HEv C × ℕ) := do
  let y ← newCiphertextBinary x0 x1 (π.sub 0)
  setScale y 0
  let ev ← mulRelinHoisted prm ev x0 x1 h0 h1 rlk y (π.sub 1)
  return (ev, y)

/-- The loops of `MulRelinNew` storing digits in a hoisting pool (mkckks/evaluator.go 422-424,
432-434, 436-438). -/
def hoistInto (level : ℕ) (a : ℕ) (o : List String) (s : KS C × HoistedCt C) :
    HM C (KS C × HoistedCt C) :=
  forEach o (fun id (s : KS C × HoistedCt C) => do
    let v ← load a id
    let ad ← lift (s.2.deref id)
    let (ks, ad) := s.1.Decompose level v ad
    return (ks, s.2.set id ad)) s

/-- `MulRelinNew` (mkckks/evaluator.go 416-443): the case distinction compares the pointers. -/
def MulRelinNew (prm : CPar C) (ev : HEv C) (x0 x1 : ℕ) (rlk : RlkSet C) (π : Sched) :
    HM C (HEv C × RlkSet C × ℕ) := do
  let a0 ← ctOf x0
  let a1 ← ctOf x1
  if x0 = x1 then
    let k ← keysOf a0
    let ids ← idSet (π.f 0 k)
    let l0 ← level a0
    let (ks, p0) ← hoistInto l0 a0 (π.f 1 (GoMap.keys ids)) (ev.ksw, rlk.pool0)
    let rlk := { rlk with pool0 := p0 }
    let (ev, y) ← MulRelinHoistedNew prm { ev with ksw := ks } x0 x1 (some rlk.pool0)
      (some rlk.pool0) rlk (π.sub 2)
    return (ev, rlk, y)
  else
    let k ← keysOf a0
    let ids0 ← idSet (π.f 0 k)
    let k ← keysOf a1
    let ids1 ← idSet (π.f 3 k)
    let l0 ← level a0
    let (ks, p0) ← hoistInto l0 a0 (π.f 1 (GoMap.keys ids0)) (ev.ksw, rlk.pool0)
    let l1 ← level a1
    let (ks, p1) ← hoistInto l1 a1 (π.f 4 (GoMap.keys ids1)) (ks, rlk.pool1)
    let rlk := { rlk with pool0 := p0, pool1 := p1 }
    let (ev, y) ← MulRelinHoistedNew prm { ev with ksw := ks } x0 x1 (some rlk.pool0)
      (some rlk.pool1) rlk (π.sub 2)
    return (ev, rlk, y)

/-- The binary loop of `rotate` (mkckks/evaluator.go 516-523), see `Ev.rotBits`; `t` is `ctTmp` and
`b` is `ctOut`. -/
def rotBits (prm : CPar C) (rkSet : RotationKeySet (RotKey C)) (t b : ℕ) (π : Sched) (r k j : ℕ)
    (ks : KS C) : HM C (KS C) :=
  if 0 < r then do
    let ks ← if r % 2 ≠ 0 then do
        let kt ← keysOf t
        let ks ← ksRotate prm.crs ks t k rkSet b ((π.sub (2 * j)).rotOrdK kt)
        let kb ← keysOf b
        copyInto t b (π.f (2 * j + 1) kb)
        pure ks
      else pure ks
    rotBits prm rkSet t b π (r / 2) (k * 2) (j + 1) ks
  else pure ks
termination_by r
decreasing_by omega

/-- `rotate` (mkckks/evaluator.go 493-525). -/
def rotate (prm : CPar C) (ev : HEv C) (x : ℕ) (rotidx : ℤ) (rkSet : RotationKeySet (RotKey C))
    (y : ℕ) (π : Sched) : HM C (HEv C) := do
  let a ← ctOf x
  let b ← ctOf y
  let rotidx := normIdx (C.N / 2) rotidx
  let k ← keysOf a
  if rotidx = 0 then
    copyInto b a (π.f 0 k)
    return ev
  else if prm.crs.has rotidx then
    let ks ← ksRotate prm.crs ev.ksw a rotidx rkSet b ((π.sub 1).rotOrdK k)
    return { ev with ksw := ks }
  else
    let z ← copyNewC x (π.f 2 k)
    let t ← ctOf z
    let ks ← rotBits prm rkSet t b (π.sub 3) rotidx.toNat 1 0 ev.ksw
    return { ev with ksw := ks }

/-- `RotateNew` (mkckks/evaluator.go 485-489). -/
def RotateNew (prm : CPar C) (ev : HEv C) (x : ℕ) (rotidx : ℤ) (rkSet : RotationKeySet (RotKey C))
    (π : Sched) : HM C (HEv C × ℕ) := do
  let a ← ctOf x
  let k ← keysOf a
  let ids ← idSet (π.f 0 k)
  let level ← level a
  let s ← scaleOf x
  let y ← newCCiphertext level (π.f 1 (GoMap.keys ids)) s
  let ev ← rotate prm ev x rotidx rkSet y (π.sub 2)
  return (ev, y)

/-- `rotateHoisted` (mkckks/evaluator.go 593-617). -/
def rotateHoisted (prm : CPar C) (ev : HEv C) (x : ℕ) (rotidx : ℤ) (H : HoistedCt C)
    (rkSet : RotationKeySet (RotKey C)) (y : ℕ) (π : Sched) : HM C (HEv C) := do
  let a ← ctOf x
  let b ← ctOf y
  let rotidx := normIdx (C.N / 2) rotidx
  let k ← keysOf a
  if rotidx = 0 then
    copyInto b a (π.f 0 k)
    return ev
  else if prm.crs.has rotidx then
    let ks ← ksRotateHoisted prm.crs ev.ksw a rotidx H rkSet b ((π.sub 1).rotOrdK k)
    return { ev with ksw := ks }
  else lift (.error (.msg "Hoisted rotation only works for precomputed rotation keys"))

/-- `RotateHoistedNew` (mkckks/evaluator.go 585-589). -/
def RotateHoistedNew (prm : CPar C) (ev : HEv C) (x : ℕ) (rotidx : ℤ) (H : HoistedCt C)
    (rkSet : RotationKeySet (RotKey C)) (π : Sched) : HM C (HEv C × ℕ) := do
  let a ← ctOf x
  let k ← keysOf a
  let ids ← idSet (π.f 0 k)
  let level ← level a
  let s ← scaleOf x
  let y ← newCCiphertext level (π.f 1 (GoMap.keys ids)) s
  let ev ← rotateHoisted prm ev x rotidx H rkSet y (π.sub 2)
  return (ev, y)

/-- `ConjugateNew` and `conjugate` (mkckks/evaluator.go 530-540). -/
def ConjugateNew (prm : CPar C) (ev : HEv C) (x : ℕ) (ckSet : KeySet (ConjKey C)) (π : Sched) :
    HM C (HEv C × ℕ) := do
  let a ← ctOf x
  let k ← keysOf a
  let ids ← idSet (π.f 0 k)
  let level ← level a
  let s ← scaleOf x
  let y ← newCCiphertext level (π.f 1 (GoMap.keys ids)) s
  let b ← ctOf y
  let ks ← ksConjugate prm.crs ev.ksw a ckSet b ((π.sub 2).rotOrdK k)
  return ({ ev with ksw := ks }, y)

/-- `HoistedForm` (mkckks/evaluator.go 543-553). -/
def HoistedForm (ev : HEv C) (x : ℕ) (π : Sched) : HM C (HEv C × HoistedCt C) := do
  let a ← ctOf x
  let k ← keysOf a
  let ids ← idSet (π.f 0 k)
  let (ks, H) ← forEach (π.f 1 (GoMap.keys ids)) (fun id (s : KS C × HoistedCt C) => do
    let H := s.2.set id SwKey.new
    let level ← level a
    let v ← load a id
    let ad ← lift (H.deref id)
    let (ks, ad) := s.1.Decompose level v ad
    return (ks, H.set id ad)) (ev.ksw, GoMap.empty)
  return ({ ev with ksw := ks }, H)

/-! ## Decryption -/

/-- `PartialDecrypt` (mkrlwe/decryptor.go 26-43), which writes its argument. -/
def partialDecrypt (a : ℕ) (sk : SecretKey C) : HM C Unit := do
  let id := sk.id
  let level ← level a
  let c ← load a id
  store a id (if !c.isNTT then c.nttLvl C.nttQ level c else c)
  let c ← load a id
  store a id (RPoly.mulMontLvl level c sk.value.Q c)
  let c ← load a id
  store a id (if !c.isNTT then c.invNttLvl C.nttQ level c else c)
  let c0 ← load a "0"
  let c ← load a id
  store a "0" (RPoly.addLvl level c0 c c0)
  delKey a id

/-- `Decrypt` (mkrlwe/decryptor.go 48-66). -/
def decrypt (a : ℕ) (skSet : KeySet (SecretKey C)) (plaintext : RQ C) (oS : List String) (π : Sched) :
    HM C (RQ C) := do
  let ctLevel ← level a
  let level := min ctLevel plaintext.level
  let plaintext := plaintext.truncate (level + 1)
  let k ← keysOf a
  let t ← copyNew a (π.f 1 k)
  let k ← keysOf a
  let idset ← idSet (π.f 2 k)
  forEach oS (fun k (_ : Unit) => do
    let sk ← lift (skSet.value.deref k)
    if idset.Has sk.id then partialDecrypt t sk else pure ()) ()
  let k ← keysOf t
  if k.length > 1 then lift (.error (.msg "Cannot Decrypt: there is a missing secretkey"))
  else
    let c0 ← load t "0"
    return c0.copyLvl level plaintext

/-- `Decrypt` (mkckks/decryptor.go 34-43). -/
def Decrypt {Msg : Type} (E : Encoder C Msg) (dec : CDec C) (x : ℕ) (skSet : KeySet (SecretKey C))
    (π : Sched) : HM C (CDec C × Msg) := do
  let a ← ctOf x
  let k ← keysOf a
  let z ← copyNewC x (π.f 0 k)
  let t ← ctOf z
  let pool ← decrypt t skSet dec.pool (π.f 3 skSet.value.keys) π
  let s ← scaleOf z
  let dec : CDec C := ⟨pool, s⟩
  return (dec, E.Decode dec.pool dec.scale)

end Mem

end MK
