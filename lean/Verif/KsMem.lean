import Verif.KeyMem
import Verif.KeySwitch

/-!
# mkrlwe/keyswitch.go and mkrlwe/keyswitch_hoisted.go on memory

Continues `Verif/KeyMem.lean`.  The scratch polynomials of the key switcher, the keys, the
reference string, the hoisted forms and the components of ciphertexts are cells of one memory;
every statement reads its operands from the memory when it is executed and writes its output in
place, so that a key, an operand or a hoisted form that shares a cell with the scratch or with
the output would be overwritten.  A `*ring.Poly` modulo `Q` is the `Q` half of its cell.
-/

noncomputable section

namespace MK

variable {C : Ctx}

/-- A statement changing the `Q` polynomial of the cell `out` in place. -/
def PMem.wrQ (m : PMem C) (out : Ptr) (f : RQ C → RQ C) : PMem C :=
  m.wr out fun x => { x with Q := f x.Q }

/-- The `Q` polynomial of a cell. -/
def PMem.q (m : PMem C) (p : Ptr) : RQ C := (m.val p).Q

/-- `mkrlwe.Ciphertext` (mkrlwe/elements.go 17-19): a map to addresses of polynomials. -/
abbrev CtA := GoMap String Ptr

/-- `mkrlwe.HoistedCiphertext` (mkrlwe/elements.go 5-7): a map to switching keys. -/
abbrev HtA := GoMap String ℕ

/-- `KeySwitcher` (mkrlwe/keyswitch.go 8-16): the nine scratch objects allocated by
`NewKeySwitcher`, in the order of allocation; `base` is the first. -/
structure KSA where
  base : ℕ

namespace KSA

/-- `PoolInvNTT` of the embedded `rlwe.KeySwitcher`. -/
def poolInv (ka : KSA) : Ptr := ⟨ka.base, 0⟩
/-- `Pool[0]` of the embedded `rlwe.KeySwitcher`. -/
def pool0 (ka : KSA) : Ptr := ⟨ka.base + 1, 0⟩
/-- `Pool[1]` of the embedded `rlwe.KeySwitcher`. -/
def pool1 (ka : KSA) : Ptr := ⟨ka.base + 2, 0⟩
/-- `polyQPool[0]` -/
def pq0 (ka : KSA) : Ptr := ⟨ka.base + 3, 0⟩
/-- `polyQPool[1]` -/
def pq1 (ka : KSA) : Ptr := ⟨ka.base + 4, 0⟩
/-- `polyQPool[2]` -/
def pq2 (ka : KSA) : Ptr := ⟨ka.base + 5, 0⟩
/-- `swkPool1` -/
def swk1 (ka : KSA) : ℕ := ka.base + 6
/-- `swkPool2` -/
def swk2 (ka : KSA) : ℕ := ka.base + 7
/-- `swkPool3` -/
def swk3 (ka : KSA) : ℕ := ka.base + 8

/-- The scratch objects. -/
def Has (ka : KSA) (o : ℕ) : Prop := ka.base ≤ o ∧ o < ka.base + 9

end KSA

/-- `NewKeySwitcher` (mkrlwe/keyswitch.go 33-47). -/
def newKeySwitcherM (m : PMem C) : KSA × PMem C :=
  (⟨m.next⟩, m.fresh.fresh.fresh.fresh.fresh.fresh.fresh.fresh.fresh)

/-! ## Decomposition and external products -/

/-- `DecomposeSingleNTT` (mkrlwe/keyswitch.go 21-31). -/
def decomposeSingleM (levelQ k : ℕ) (a out : Ptr) (m : PMem C) : PMem C :=
  let m := m.wr out (decomposeAndSplit levelQ C.lp k (m.q a))
  let m := m.wrQ out fun x => x.nttLvl C.nttQ levelQ x
  m.wr out fun x => { x with P := x.P.nttLvl C.nttP C.lp x.P }

/-- Selection of the coefficient-form input (mkrlwe/keyswitch.go 54-61, 85-92): the address of
the polynomial to decompose, which is `a` itself or `PoolInvNTT`. -/
def KSA.toCoeffM (ka : KSA) (levelQ : ℕ) (a : Ptr) (m : PMem C) : Ptr × PMem C :=
  if (m.q a).isNTT then (ka.poolInv, m.wrQ ka.poolInv ((m.q a).invNttLvl C.nttQ levelQ))
  else (a, m)

/-- `Decompose` (mkrlwe/keyswitch.go 49-73). -/
def KSA.DecomposeM (ka : KSA) (levelQ : ℕ) (a : Ptr) (ad : ℕ) (m : PMem C) : PMem C :=
  let (aInv, m) := ka.toCoeffM levelQ a m
  forLt (C.beta levelQ) (fun i m => decomposeSingleM levelQ i aInv ⟨ad, i⟩ m) m

/-- The end of both external products (mkrlwe/keyswitch.go 114-117,
mkrlwe/keyswitch_hoisted.go 36-39). -/
def KSA.extFinishM (ka : KSA) (levelQ : ℕ) (c : Ptr) (m : PMem C) : PMem C :=
  let m := m.wrQ ka.pool1 fun x => x.invNttLvl C.nttQ levelQ x
  let m := m.wr ka.pool1 fun x => { x with P := x.P.invNttLvl C.nttP C.lp x.P }
  m.wrQ c (modDownQPtoQ levelQ (m.val ka.pool1))

/-- `ExternalProduct` (mkrlwe/keyswitch.go 79-118). -/
def KSA.ExternalProductM (ka : KSA) (levelQ : ℕ) (a : Ptr) (bg : ℕ) (c : Ptr) (m : PMem C) :
    PMem C :=
  let (aInv, m) := ka.toCoeffM levelQ a m
  let m := forLt (C.beta levelQ) (fun i m =>
    let m := decomposeSingleM levelQ i aInv ka.pool0 m
    if i = 0 then m.op2 (QP.mulMontLvl levelQ C.lp) ⟨bg, i⟩ ka.pool0 ka.pool1
    else m.op2 (QP.mulMontAddLvl levelQ C.lp) ⟨bg, i⟩ ka.pool0 ka.pool1) m
  ka.extFinishM levelQ c m

/-- `ExternalProductHoisted` (mkrlwe/keyswitch_hoisted.go 10-40). -/
def KSA.ExternalProductHoistedM (ka : KSA) (levelQ : ℕ) (h bg : ℕ) (c : Ptr) (m : PMem C) :
    PMem C :=
  let m := forLt (C.beta levelQ) (fun i m =>
    if i = 0 then m.op2 (QP.mulMontLvl levelQ C.lp) ⟨bg, i⟩ ⟨h, i⟩ ka.pool1
    else m.op2 (QP.mulMontAddLvl levelQ C.lp) ⟨bg, i⟩ ⟨h, i⟩ ka.pool1) m
  ka.extFinishM levelQ c m

/-- `Level()` (mkrlwe/elements.go 60-62). -/
def CtA.levelM (ct : CtA) (m : PMem C) : Go ℕ := do
  let c0 ← ct.deref "0"
  return (m.q c0).level

/-- The loop of `HoistedForm` (mkckks/evaluator.go 547-550): a new switching key for every
participant. -/
def KSA.hoistLoopM (ka : KSA) (ct : CtA) : List String → HtA × PMem C → Go (HtA × PMem C) :=
  fun o => forEach o fun id (s : HtA × PMem C) => do
    let H := s.1.set id s.2.next
    let m := s.2.fresh
    let level ← ct.levelM m
    let a ← ct.deref id
    let ad ← H.deref id
    return (H, ka.DecomposeM level a ad m)

/-- The loops of `MulRelinNew` filling `HoistPool[0]` or `HoistPool[1]` of the key set
(mkckks/evaluator.go 422-424, 432-438). -/
def KSA.hoistIntoM (ka : KSA) (level : ℕ) (ct : CtA) (pool : HtA) (o : List String)
    (m : PMem C) : Go (PMem C) :=
  forEach o (fun id m => do
    let a ← ct.deref id
    let ad ← pool.deref id
    return ka.DecomposeM level a ad m) m

/-! ## Allocation -/

/-- A ciphertext in new cells with given contents: the component `"0"`, then one component per id
of `o`. -/
def ctFromM (v : String → RQ C) (o : List String) (m : PMem C) : CtA × PMem C :=
  (("0" :: o).foldl (fun (s : CtA × PMem C) id =>
    (s.1.set id ⟨s.2.next, 0⟩, s.2.fresh.wrQ ⟨s.2.next, 0⟩ fun _ => v id)) (GoMap.empty, m))

/-- `NewCiphertext` (mkrlwe/elements.go 22-33); `o` is the visiting order of the id set. -/
def newCtM (level : ℕ) (o : List String) (m : PMem C) : CtA × PMem C :=
  ctFromM (fun _ => RPoly.new (level + 1)) o m

/-- `AddRelinearizationKey` (mkrlwe/keys.go 178-182): two new switching keys for the hoisting
pools. -/
def addRlkM (s : RelinKeySet RlkA ℕ) (k : RlkA) (m : PMem C) : RelinKeySet RlkA ℕ × PMem C :=
  let v := s.value.set k.id k
  let p0 := s.pool0.set k.id m.next
  let m := m.fresh
  let p1 := s.pool1.set k.id m.next
  let m := m.fresh
  (⟨v, p0, p1⟩, m)

/-! ## Multiplication -/

/-- `for i < beta { MulCoeffsMontgomeryAndAddLvl(d[i], h[i], x[i]) }` (mkrlwe/keyswitch.go 160-162, 173-175;
see `mulAcc`). -/
def mulAccM (level : ℕ) (d h x : ℕ) (m : PMem C) : PMem C :=
  forLt (C.beta level) (fun i m => m.op2 (QP.mulMontAddLvl level C.lp) ⟨d, i⟩ ⟨h, i⟩ ⟨x, i⟩) m

/-- `for i < beta { MFormLvl(x[i], x[i]) }` (mkrlwe/keyswitch.go 165-167, 178-180; see `mformAll`). -/
def mformAllM (level : ℕ) (x : ℕ) (m : PMem C) : PMem C :=
  forLt (C.beta level) (fun i m => m.op1 (QP.mformLvl level C.lp) ⟨x, i⟩ ⟨x, i⟩) m

/-- The clearing loop for one of the two vectors (mkrlwe/keyswitch.go 148-154;
mkrlwe/keyswitch_hoisted.go 70-76). -/
def zeroAllM (level : ℕ) (x : ℕ) (m : PMem C) : PMem C :=
  forLt (C.beta level) (fun i m => m.wr ⟨x, i⟩ fun v => ⟨v.Q.zero, v.P.zero⟩) m

/-- The switching key holding the digits of component `id` (mkrlwe/keyswitch.go 158, 171;
mkrlwe/keyswitch_hoisted.go 80-91, 100-111). -/
def KSA.getDigitsM (ka : KSA) (level : ℕ) (op : CtA) (hoisted : Option HtA) (id : String)
    (m : PMem C) : Go (ℕ × PMem C) :=
  match hoisted with
  | none => do
    let a ← op.deref id
    return (ka.swk3, ka.DecomposeM level a ka.swk3 m)
  | some H => do
    let h ← H.deref id
    return (h, m)

/-- One iteration of the loop building `x` (mkrlwe/keyswitch.go 157-163;
mkrlwe/keyswitch_hoisted.go 79-92). -/
def KSA.xStepM (ka : KSA) (level : ℕ) (op0 : CtA) (h0 : Option HtA) (rlk : GoMap String RlkA)
    (id : String) (m : PMem C) : Go (PMem C) := do
  let (h, m) ← ka.getDigitsM level op0 h0 id m
  let k ← rlk.deref id
  return mulAccM level k.d h ka.swk1 m

/-- One iteration of the loop building `y` (mkrlwe/keyswitch.go 170-176;
mkrlwe/keyswitch_hoisted.go 99-113). -/
def KSA.yStepM (ka : KSA) (level : ℕ) (op1 : CtA) (h1 : Option HtA) (rlk : GoMap String RlkA)
    (id : String) (m : PMem C) : Go (PMem C) := do
  let (h, m) ← ka.getDigitsM level op1 h1 id m
  let k ← rlk.deref id
  return mulAccM level k.b h ka.swk2 m

/-- `ctOut_j <- op1_0 * op0_j` (mkrlwe/keyswitch.go 191-194; mkrlwe/keyswitch_hoisted.go
128-131). -/
def KSA.t0StepM (ka : KSA) (level : ℕ) (op0 out : CtA) (id : String) (m : PMem C) :
    Go (PMem C) := do
  let a ← op0.deref id
  let m := m.wrQ ka.pq2 ((m.q a).nttLvl C.nttQ level)
  let o ← out.deref id
  return m.wrQ o (RPoly.mulMontLvl level (m.q ka.pq1) (m.q ka.pq2))

/-- `ctOut_j (+)= op0_0 * op1_j` (mkrlwe/keyswitch.go 196-203; mkrlwe/keyswitch_hoisted.go
133-140). -/
def KSA.t1StepM (ka : KSA) (level : ℕ) (op1 : CtA) (idset0 : IDSet) (out : CtA) (id : String)
    (m : PMem C) : Go (PMem C) := do
  let a ← op1.deref id
  let m := m.wrQ ka.pq2 ((m.q a).nttLvl C.nttQ level)
  let o ← out.deref id
  return if idset0.Has id then
      m.wrQ o (RPoly.mulMontAddLvl level (m.q ka.pq0) (m.q ka.pq2))
    else m.wrQ o (RPoly.mulMontLvl level (m.q ka.pq0) (m.q ka.pq2))

/-- `InvNTT` of every component (mkrlwe/keyswitch.go 205-207; mkrlwe/keyswitch_hoisted.go
142-144). -/
def invStepM (level : ℕ) (out : CtA) (id : String) (m : PMem C) : Go (PMem C) := do
  let o ← out.deref id
  return m.wrQ o fun x => x.invNttLvl C.nttQ level x

/-- The external product of component `id` (hoisted or not) with a key into `polyQPool[0]`
(mkrlwe/keyswitch.go 211, 222; mkrlwe/keyswitch_hoisted.go 148-152, 165-169). -/
def KSA.extCompM (ka : KSA) (level : ℕ) (op : CtA) (hoisted : Option HtA) (id : String)
    (key : ℕ) (m : PMem C) : Go (PMem C) :=
  match hoisted with
  | none => do
    let a ← op.deref id
    return ka.ExternalProductM level a key ka.pq0 m
  | some H => do
    let h ← H.deref id
    return ka.ExternalProductHoistedM level h key ka.pq0 m

/-- `ctOut_j <- ctOut_j + Ext(op1_j, x)` (mkrlwe/keyswitch.go 210-213;
mkrlwe/keyswitch_hoisted.go 147-154). -/
def KSA.e1StepM (ka : KSA) (level : ℕ) (op1 : CtA) (h1 : Option HtA) (out : CtA) (id : String)
    (m : PMem C) : Go (PMem C) := do
  let m ← ka.extCompM level op1 h1 id ka.swk1 m
  let o ← out.deref id
  return m.wrQ o fun x => RPoly.addLvl level x (m.q ka.pq0) x

/-- The two external products of `polyQPool[0]` with `v` and `u` without hoisting
(mkrlwe/keyswitch.go 224-228). -/
def KSA.lastPlainM (ka : KSA) (crs : GoMap ℤ ℕ) (level : ℕ) (v : ℕ) (out : CtA) (id : String)
    (m : PMem C) : Go (PMem C) := do
  let m := ka.ExternalProductM level ka.pq0 v ka.pq1 m
  let o0 ← out.deref "0"
  let m := m.wrQ o0 fun x => RPoly.addLvl level x (m.q ka.pq1) x
  let u ← crs.deref (-1)
  let m := ka.ExternalProductM level ka.pq0 u ka.pq2 m
  let o ← out.deref id
  return m.wrQ o fun x => RPoly.addLvl level x (m.q ka.pq2) x

/-- The same with one shared decomposition in `swkPool3` (mkrlwe/keyswitch_hoisted.go 171-177). -/
def KSA.lastHoistedM (ka : KSA) (crs : GoMap ℤ ℕ) (level : ℕ) (v : ℕ) (out : CtA)
    (id : String) (m : PMem C) : Go (PMem C) := do
  let m := ka.DecomposeM level ka.pq0 ka.swk3 m
  let m := ka.ExternalProductHoistedM level ka.swk3 v ka.pq1 m
  let o0 ← out.deref "0"
  let m := m.wrQ o0 fun x => RPoly.addLvl level x (m.q ka.pq1) x
  let u ← crs.deref (-1)
  let m := ka.ExternalProductHoistedM level ka.swk3 u ka.pq2 m
  let o ← out.deref id
  return m.wrQ o fun x => RPoly.addLvl level x (m.q ka.pq2) x

/-- One iteration of the final loop (mkrlwe/keyswitch.go 220-229;
mkrlwe/keyswitch_hoisted.go 161-178). -/
def KSA.e0StepM (ka : KSA) (last : ℕ → String → PMem C → Go (PMem C)) (level : ℕ) (op0 : CtA)
    (h0 : Option HtA) (rlk : GoMap String RlkA) (id : String) (m : PMem C) : Go (PMem C) := do
  let k ← rlk.deref id
  let m ← ka.extCompM level op0 h0 id ka.swk2 m
  last k.v id m

/-- The common text of `MulAndRelin` and `MulAndRelinHoisted` (mkrlwe/keyswitch.go 122-230;
mkrlwe/keyswitch_hoisted.go 44-179; see `KS.mulCore`).  `IDSet()` of
an operand only looks at the keys of its map. -/
def KSA.mulCoreM (ka : KSA) (last : ℕ → ℕ → CtA → String → PMem C → Go (PMem C))
    (op0 op1 : CtA) (h0 h1 : Option HtA) (rlk : GoMap String RlkA) (out : CtA) (o : MulOrd)
    (m : PMem C) : Go (PMem C) := do
  let level ← out.levelM m
  let l0 ← op0.levelM m
  if l0 < level then
    .error (.msg "Cannot MulAndRelin: op0 and op1 have different levels")
  else
    let idset0 ← Ct.idLoop IDSet.new o.i0
    let _ ← Ct.idLoop IDSet.new o.i1
    let m := zeroAllM level ka.swk1 m
    let m := zeroAllM level ka.swk2 m
    let m ← forEach o.x (ka.xStepM level op0 h0 rlk) m
    let m := mformAllM level ka.swk1 m
    let m ← forEach o.y (ka.yStepM level op1 h1 rlk) m
    let m := mformAllM level ka.swk2 m
    let a0 ← op0.deref "0"
    let a1 ← op1.deref "0"
    let m := m.wrQ ka.pq0 ((m.q a0).nttLvl C.nttQ level)
    let m := m.wrQ ka.pq1 ((m.q a1).nttLvl C.nttQ level)
    let m := m.wrQ ka.pq0 fun x => x.mformLvl level x
    let o0 ← out.deref "0"
    let m := m.wrQ o0 (RPoly.mulMontLvl level (m.q ka.pq0) (m.q ka.pq1))
    let m := m.wrQ ka.pq1 fun x => x.mformLvl level x
    let m ← forEach o.t0 (ka.t0StepM level op0 out) m
    let m ← forEach o.t1 (ka.t1StepM level op1 idset0 out) m
    let m ← forEach o.inv (invStepM level out) m
    let m ← forEach o.e1 (ka.e1StepM level op1 h1 out) m
    forEach o.e0 (ka.e0StepM (fun v => last level v out) level op0 h0 rlk) m

/-- `MulAndRelin` (mkrlwe/keyswitch.go 122-230). -/
def KSA.MulAndRelinM (ka : KSA) (crs : GoMap ℤ ℕ) (op0 op1 : CtA) (rlk : GoMap String RlkA)
    (out : CtA) (o : MulOrd) (m : PMem C) : Go (PMem C) :=
  ka.mulCoreM (ka.lastPlainM crs) op0 op1 none none rlk out o m

/-- `MulAndRelinHoisted` (mkrlwe/keyswitch_hoisted.go 44-179). -/
def KSA.MulAndRelinHoistedM (ka : KSA) (crs : GoMap ℤ ℕ) (op0 op1 : CtA) (h0 h1 : Option HtA)
    (rlk : GoMap String RlkA) (out : CtA) (o : MulOrd) (m : PMem C) : Go (PMem C) :=
  ka.mulCoreM (ka.lastHoistedM crs) op0 op1 h0 h1 rlk out o m

/-! ## Rotation and conjugation -/

/-- One iteration of the permutation of the components (mkrlwe/keyswitch.go 268-296). -/
def KSA.permStepM (ka : KSA) (level g : ℕ) (out : CtA) (id : String) (m : PMem C) :
    Go (PMem C) := do
  let c ← out.deref id
  let m := m.wrQ ka.pq0 (permuteLvl level g (m.q c))
  return m.wrQ c (m.q ka.pq0).copy

/-- One iteration of the key-switching loop of `Rotate(Hoisted)` (mkrlwe/keyswitch.go 258-264;
mkrlwe/keyswitch_hoisted.go 207-213).  `extp id key c` is the external product of component
`id` with `key` into `c`. -/
def KSA.rotStepM (ka : KSA) (extp : String → ℕ → Ptr → PMem C → Go (PMem C)) (crs : GoMap ℤ ℕ)
    (level : ℕ) (rotidx : ℤ) (rkSet : RotationKeySet RotA) (out : CtA) (id : String)
    (m : PMem C) : Go (PMem C) := do
  let rk ← rkSet.get id rotidx.toNat
  let m ← extp id rk.value ka.pq0 m
  let o0 ← out.deref "0"
  let m := m.wrQ o0 fun x => RPoly.addLvl level x (m.q ka.pq0) x
  let a ← crs.deref rotidx
  let o ← out.deref id
  extp id a o m

/-- Common text of `Rotate` and `RotateHoisted` (mkrlwe/keyswitch.go 234-298;
mkrlwe/keyswitch_hoisted.go 183-247). -/
def KSA.rotCoreM (ka : KSA) (extp : ℕ → String → ℕ → Ptr → PMem C → Go (PMem C))
    (crs : GoMap ℤ ℕ) (ctIn : CtA) (rotidx : ℤ) (rkSet : RotationKeySet RotA) (out : CtA)
    (o : RotOrd) (m : PMem C) : Go (PMem C) := do
  let level ← out.levelM m
  let _ ← Ct.idLoop IDSet.new o.i
  let l0 ← ctIn.levelM m
  if l0 < level then
    .error (.msg "Cannot Rotate: ctIn and ctOut have different levels")
  else
    let rotidx := normRot (C.N / 2) rotidx
    let i0 ← ctIn.deref "0"
    let o0 ← out.deref "0"
    let m := m.wrQ o0 (m.q i0).copy
    let m ← forEach o.k (ka.rotStepM (extp level) crs level rotidx rkSet out) m
    let galEl := galCol C.N rotidx.toNat
    forEach o.p (ka.permStepM level galEl out) m

/-- `Rotate` (mkrlwe/keyswitch.go 234-298). -/
def KSA.RotateM (ka : KSA) (crs : GoMap ℤ ℕ) (ctIn : CtA) (rotidx : ℤ)
    (rkSet : RotationKeySet RotA) (out : CtA) (o : RotOrd) (m : PMem C) : Go (PMem C) :=
  ka.rotCoreM (fun level id key c m => do
    let a ← ctIn.deref id
    return ka.ExternalProductM level a key c m) crs ctIn rotidx rkSet out o m

/-- `RotateHoisted` (mkrlwe/keyswitch_hoisted.go 183-247). -/
def KSA.RotateHoistedM (ka : KSA) (crs : GoMap ℤ ℕ) (ctIn : CtA) (rotidx : ℤ) (H : HtA)
    (rkSet : RotationKeySet RotA) (out : CtA) (o : RotOrd) (m : PMem C) : Go (PMem C) :=
  ka.rotCoreM (fun level id key c m => do
    let h ← H.deref id
    return ka.ExternalProductHoistedM level h key c m) crs ctIn rotidx rkSet out o m

/-- Permutation in `Conjugate` (mkrlwe/keyswitch.go 315-317): `ringQ.Permute(in, g, out)` loops over all moduli. -/
def conjPermStepM (ctIn out : CtA) (id : String) (m : PMem C) : Go (PMem C) := do
  let a ← ctIn.deref id
  let o ← out.deref id
  let p ← permuteFull (galRow C.N) (m.q a) (m.q o)
  return m.wrQ o fun _ => p

/-- Key switching in `Conjugate` (mkrlwe/keyswitch.go 320-324). -/
def KSA.conjKeyStepM (ka : KSA) (level : ℕ) (ckSet : KeySet CjA) (out : CtA) (id : String)
    (m : PMem C) : Go (PMem C) := do
  let ck ← ckSet.get id
  let a ← out.deref id
  let m := ka.ExternalProductM level a ck.value ka.pq0 m
  let o0 ← out.deref "0"
  return m.wrQ o0 fun x => RPoly.addLvl level x (m.q ka.pq0) x

/-- Key switching in `Conjugate` (mkrlwe/keyswitch.go 327-331). -/
def KSA.conjCrsStepM (ka : KSA) (crs : GoMap ℤ ℕ) (level : ℕ) (out : CtA) (id : String)
    (m : PMem C) : Go (PMem C) := do
  let a ← out.deref id
  let u ← crs.deref (-2)
  let m := ka.ExternalProductM level a u ka.pq0 m
  return m.wrQ a (m.q ka.pq0).copy

/-- `Conjugate` (mkrlwe/keyswitch.go 302-332). -/
def KSA.ConjugateM (ka : KSA) (crs : GoMap ℤ ℕ) (ctIn : CtA) (ckSet : KeySet CjA) (out : CtA)
    (o : RotOrd) (m : PMem C) : Go (PMem C) := do
  let level ← out.levelM m
  let _ ← Ct.idLoop IDSet.new o.i
  let l0 ← ctIn.levelM m
  if l0 < level then
    .error (.msg "Cannot Conjugate: ctIn and ctOut have different levels")
  else
    let m ← forEach o.p (conjPermStepM ctIn out) m
    let m ← forEach o.k (ka.conjKeyStepM level ckSet out) m
    forEach o.k2 (ka.conjCrsStepM crs level out) m

/-! ## Reading -/

/-- The scratch of the key switcher as a value. -/
def KSA.read (ka : KSA) (m : PMem C) : KS C where
  poolInv := m.q ka.poolInv
  pool0 := m.val ka.pool0
  pool1 := m.val ka.pool1
  pq0 := m.q ka.pq0
  pq1 := m.q ka.pq1
  pq2 := m.q ka.pq2
  swk1 := m.obj ka.swk1
  swk2 := m.obj ka.swk2
  swk3 := m.obj ka.swk3

/-- A ciphertext as a value. -/
def CtA.read (ct : CtA) (m : PMem C) : Ct C := ⟨ct.mapVals fun _ p => m.q p⟩

/-- A hoisted form as a value. -/
def HtA.read (H : HtA) (m : PMem C) : HoistedCt C := H.mapVals fun _ o => m.obj o

/-- The relinearization keys of a set as values. -/
def readRlks (s : GoMap String RlkA) (m : PMem C) : GoMap String (RelinKey C) :=
  s.mapVals fun _ k => k.read m

/-- The conjugation keys of a set as values. -/
def readCjs (s : KeySet CjA) (m : PMem C) : KeySet (ConjKey C) :=
  ⟨s.value.mapVals fun _ k => k.read m⟩

end MK
