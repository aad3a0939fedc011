import Verif.Evaluator
import Verif.EncDec

/-!
# The evaluator on pointers

In `Verif/Evaluator.lean` ciphertexts are values: an operation returns a new value, and nothing else
changes.  The Go program works on pointers (`*mkckks.Ciphertext`, `*mkrlwe.Ciphertext`, `*ring.Poly`):
an operation writes through them, and every other pointer to the same object sees the write.  Here
the same functions are modelled on a memory.  A ciphertext is an address; its components are
addresses of polynomials; a component is read and written through its address; two operands may be
the same object or share components; and the branches of `evaluateInPlace` that compare pointers are
modelled as they stand.

Not in the memory: keys, hoisted forms and the scratch of the key switcher (`KS`).  No function of the
repository lets a ciphertext component point into them, so they stay values, as in
`Verif/KeySwitch.lean`.  A polynomial is the unit of sharing: no function makes two polynomials share
rows.
-/

noncomputable section

namespace MK

variable {C : Ctx} {α β σ τ : Type}

/-- The memory: `ring.Poly` objects, `mkrlwe.Ciphertext` objects (mkrlwe/elements.go 17-19: a map to
addresses of polynomials), `mkckks.Ciphertext` objects (mkckks/elements.go 5-8: the address of a
`mkrlwe.Ciphertext` and the scale).  Addresses from `next` on are free. -/
structure Heap (C : Ctx) where
  poly : ℕ → RQ C
  ct : ℕ → GoMap String ℕ
  cct : ℕ → ℕ × ℚ
  next : ℕ

/-- A Go computation on the memory: it panics or returns a value and the new memory. -/
abbrev HM (C : Ctx) (α : Type) := StateT (Heap C) (Except Panic) α

/-- The addresses of `ctxtPool` and `polyQPool` (mkckks/evaluator.go 16-17). -/
structure Pools where
  pool : ℕ
  polyQ : ℕ

/-- The evaluator (mkckks/evaluator.go 13-18) with its pools as addresses. -/
structure HEv (C : Ctx) extends Pools where
  ksw : KS C

namespace Mem

/-! ## Memory access -/

/-- A computation that does not touch the memory. -/
def lift (m : Go α) : HM C α := fun h =>
  match m with
  | .ok a => .ok (a, h)
  | .error p => .error p

/-- Read `*p`. -/
def readPoly (p : ℕ) : HM C (RQ C) := fun h => .ok (h.poly p, h)

/-- Write `*p`. -/
def writePoly (p : ℕ) (v : RQ C) : HM C Unit := fun h =>
  .ok ((), { h with poly := Function.update h.poly p v })

/-- Read the polynomial `ct.Value[id]` points to; an absent key is a nil pointer. -/
def load (a : ℕ) (id : String) : HM C (RQ C) := fun h =>
  match (h.ct a).get? id with
  | some p => .ok (h.poly p, h)
  | none => .error .nilDeref

/-- Write the polynomial `ct.Value[id]` points to. -/
def store (a : ℕ) (id : String) (v : RQ C) : HM C Unit := fun h =>
  match (h.ct a).get? id with
  | some p => .ok ((), { h with poly := Function.update h.poly p v })
  | none => .error .nilDeref

/-- The keys of `ct.Value`. -/
def keysOf (a : ℕ) : HM C (List String) := fun h => .ok ((h.ct a).keys, h)

/-- `ct.Value[id] = p` for a newly allocated polynomial with contents `v`. -/
def addPoly (a : ℕ) (id : String) (v : RQ C) : HM C Unit := fun h =>
  .ok ((), { h with
    poly := Function.update h.poly h.next v
    ct := Function.update h.ct a ((h.ct a).set id h.next)
    next := h.next + 1 })

/-- `delete(ct.Value, id)`. -/
def delKey (a : ℕ) (id : String) : HM C Unit := fun h =>
  .ok ((), { h with ct := Function.update h.ct a ((h.ct a).del id) })

/-- `new(mkrlwe.Ciphertext)` with an empty map. -/
def newCt : HM C ℕ := fun h =>
  .ok (h.next, { h with ct := Function.update h.ct h.next GoMap.empty, next := h.next + 1 })

/-- `&mkckks.Ciphertext{a, s}`. -/
def newCCt (a : ℕ) (s : ℚ) : HM C ℕ := fun h =>
  .ok (h.next, { h with cct := Function.update h.cct h.next (a, s), next := h.next + 1 })

/-- The embedded `*mkrlwe.Ciphertext` (`El()`, `.Ciphertext`). -/
def ctOf (x : ℕ) : HM C ℕ := fun h => .ok ((h.cct x).1, h)

/-- `ScalingFactor()` (mkckks/elements.go 20-22). -/
def scaleOf (x : ℕ) : HM C ℚ := fun h => .ok ((h.cct x).2, h)

/-- `SetScalingFactor` (mkckks/elements.go 25-27). -/
def setScale (x : ℕ) (s : ℚ) : HM C Unit := fun h =>
  .ok ((), { h with cct := Function.update h.cct x ((h.cct x).1, s) })

/-- A `range` loop in visiting order `o`. -/
def forEach (o : List α) (body : α → σ → HM C σ) (s : σ) : HM C σ :=
  match o with
  | [] => pure s
  | a :: o => do
    let s ← body a s
    forEach o body s

/-- A loop `for i := 0; i < n; i++`. -/
def forN (n : ℕ) (body : ℕ → σ → HM C σ) (s : σ) : HM C σ :=
  match n with
  | 0 => pure s
  | n + 1 => do
    let s ← forN n body s
    body n s

/-! ## mkrlwe/elements.go -/

/-- `NewCiphertext` (mkrlwe/elements.go 22-33). -/
def newCiphertext (level : ℕ) (o : List String) : HM C ℕ := do
  let a ← newCt
  addPoly a "0" (RPoly.new (level + 1))
  forEach o (fun id (_ : Unit) => addPoly a id (RPoly.new (level + 1))) ()
  return a

/-- `IDSet()` (mkrlwe/elements.go 47-57). -/
def idSet (o : List String) : HM C IDSet := lift (Ct.idLoop IDSet.new o)

/-- `Level()` (mkrlwe/elements.go 60-62). -/
def level (a : ℕ) : HM C ℕ := do
  let c0 ← load a "0"
  return c0.level

/-- `CopyNew` (mkrlwe/elements.go 70-81). -/
def copyNew (a : ℕ) (o : List String) : HM C ℕ := do
  let b ← newCt
  let c0 ← load a "0"
  addPoly b "0" c0
  forEach o (fun id (_ : Unit) => do
    let p ← load a id
    addPoly b id p) ()
  return b

/-- `el.Copy(ct)` (mkrlwe/elements.go 84-88). -/
def copyInto (el ct : ℕ) (o : List String) : HM C Unit :=
  forEach o (fun id (_ : Unit) => do
    let src ← load ct id
    let dst ← load el id
    store el id (src.copy dst)) ()

/-- `PadCiphertext` (mkrlwe/elements.go 91-105). -/
def padCiphertext (el : ℕ) (oEl o : List String) : HM C Unit := do
  let c0 ← load el "0"
  let oldIDs ← idSet oEl
  let level ← level el
  forEach o (fun id (_ : Unit) =>
    if oldIDs.Has id then pure ()
    else addPoly el id { RPoly.new (level + 1) with isNTT := c0.isNTT }) ()

/-! ## mkckks/elements.go -/

/-- `NewCiphertext` (mkckks/elements.go 11-17). -/
def newCCiphertext (level : ℕ) (o : List String) (scale : ℚ) : HM C ℕ := do
  let a ← newCiphertext level o
  newCCt a scale

/-- `CopyNew` (mkckks/elements.go 30-33). -/
def copyNewC (x : ℕ) (o : List String) : HM C ℕ := do
  let a ← ctOf x
  let b ← copyNew a o
  let s ← scaleOf x
  newCCt b s

/-! ## mkckks/evaluator.go: levels and constants -/

/-- `DropLevel` (mkckks/evaluator.go 106-112), see `MK.dropLevel`. -/
def dropLevel (a : ℕ) (levels : ℕ) (o : List String) : HM C Unit := do
  let level ← level a
  if level + 1 < levels then lift (.error .indexRange)
  else forEach o (fun id (_ : Unit) => do
    let p ← load a id
    store a id (p.truncate (level + 1 - levels))) ()

/-- `DropLevelNew` (mkckks/evaluator.go 98-102). -/
def dropLevelNew (x : ℕ) (levels : ℕ) (π : Sched) : HM C ℕ := do
  let a ← ctOf x
  let k ← keysOf a
  let y ← copyNewC x (π.f 0 k)
  let b ← ctOf y
  let k ← keysOf b
  dropLevel b levels (π.f 1 k)
  return y

/-- See `MK.mulHalfStep` (mkckks/evaluator.go 149-168 and 175-194). -/
def mulHalfStep (a b : ℕ) (i : ℕ) (sel : Fin C.N → Prop) [DecidablePred sel] (c : ZMod (C.q i))
    (u : String) (_ : Unit) : HM C Unit := do
  let p0 ← load a u
  let p1 ← load b u
  store b u (p1.setRow i sel fun j => RPoly.mred (p0.row i j) c)

/-- `MultByConst(ct0, constant, ctOut)` (mkckks/evaluator.go 117-198); `x` and `y` are `ct0` and
`ctOut`. -/
def multByConst (prm : CPar C) (x : ℕ) (c : Const) (y : ℕ) (π : Sched) : HM C Unit := do
  let a ← ctOf x
  let b ← ctOf y
  let l0 ← level a
  let l1 ← level b
  let level := min l0 l1
  let (re, im, sc) := prm.getConstAndScale level c
  forN (level + 1) (fun i _ => do
    let (c1, c2) := prm.scaledConsts re im sc i
    let k ← keysOf a
    forEach (π.f (2 * i) k) (mulHalfStep a b i (fun j => j.val < C.N / 2) c1) ()
    let k ← keysOf a
    forEach (π.f (2 * i + 1) k) (mulHalfStep a b i (fun j => ¬ j.val < C.N / 2) c2) ()) ()
  let s ← scaleOf x
  setScale y (prm.fl.rnd (s * sc))

/-! ## Addition and subtraction -/

/-- The scale alignment of `evaluateInPlace` (mkckks/evaluator.go 223-290), with all three cases:
the output is the first operand, the second operand, or neither.  Returns `tmp0` and `tmp1`. -/
def alignOperands (prm : CPar C) (ev : HEv C) (c0 c1 y : ℕ) (s0 s1 so : ℚ) (π : Sched) :
    HM C (ℕ × ℕ) := do
  let a0 ← ctOf c0
  let a1 ← ctOf c1
  let b ← ctOf y
  if y = c0 then
    if s1 < s0 ∧ 1 < prm.ratio s0 s1 then
      let u ← newCCt a1 s1
      let v ← newCCt ev.pool so
      multByConst prm u (.f64 (prm.ratio s0 s1)) v (π.sub 11)
      return (a0, ev.pool)
    else if s0 < s1 ∧ 1 < prm.ratio s1 s0 then
      let u ← newCCt a0 s0
      let v ← newCCt a0 s0
      multByConst prm u (.f64 (prm.ratio s1 s0)) v (π.sub 12)
      setScale y s1
      return (a0, a1)
    else return (a0, a1)
  else if y = c1 then
    if s0 < s1 ∧ 1 < prm.ratio s1 s0 then
      let u ← newCCt a0 s0
      let v ← newCCt ev.pool so
      multByConst prm u (.f64 (prm.ratio s1 s0)) v (π.sub 13)
      return (ev.pool, a1)
    else if s1 < s0 ∧ 1 < prm.ratio s0 s1 then
      let u ← newCCt a1 s1
      let v ← newCCt b so
      multByConst prm u (.f64 (prm.ratio s0 s1)) v (π.sub 14)
      setScale y s0
      return (a0, a1)
    else return (a0, a1)
  else
    if s0 < s1 ∧ 1 < prm.ratio s1 s0 then
      let u ← newCCt a0 s0
      let v ← newCCt ev.pool so
      multByConst prm u (.f64 (prm.ratio s1 s0)) v (π.sub 7)
      return (ev.pool, a1)
    else if s1 < s0 ∧ 1 < prm.ratio s0 s1 then
      let u ← newCCt a1 s1
      let v ← newCCt ev.pool so
      multByConst prm u (.f64 (prm.ratio s0 s1)) v (π.sub 8)
      return (a0, ev.pool)
    else return (a0, a1)

/-- One iteration of the final loop of `evaluateInPlace` (mkckks/evaluator.go 293-301). -/
def evalStep (evaluate : PolyOp C) (level : ℕ) (idset0 idset1 : IDSet) (t0 t1 b : ℕ)
    (id : String) (_ : Unit) : HM C Unit :=
  if !idset0.Has id then do
    let p1 ← load t1 id
    let o ← load b id
    store b id (RPoly.copyLvl level p1 o)
  else if !idset1.Has id then do
    let p0 ← load t0 id
    let o ← load b id
    store b id (RPoly.copyLvl level p0 o)
  else do
    let p0 ← load t0 id
    let p1 ← load t1 id
    let o ← load b id
    store b id (evaluate level p0 p1 o)

/-- `evaluateInPlace(c0, c1, ctOut, evaluate)` (mkckks/evaluator.go 200-304); `y` is `ctOut`. -/
def evaluateInPlace (prm : CPar C) (ev : HEv C) (c0 c1 y : ℕ) (evaluate : PolyOp C) (π : Sched) :
    HM C Unit := do
  let a0 ← ctOf c0
  let a1 ← ctOf c1
  let b ← ctOf y
  let k ← keysOf a0
  let idset0 ← idSet (π.f 0 k)
  let k ← keysOf a1
  let idset1 ← idSet (π.f 1 k)
  let idset ← lift (idset0.Union idset1 (π.f 2 (GoMap.keys idset0)) (π.f 3 (GoMap.keys idset1)))
  let k ← keysOf ev.pool
  padCiphertext ev.pool (π.f 4 k) (π.f 5 (GoMap.keys idset))
  let l0 ← level a0
  let l1 ← level a1
  let lo ← level b
  let level := min (min l0 l1) lo
  let s0 ← scaleOf c0
  let s1 ← scaleOf c1
  let so ← scaleOf y
  let k ← keysOf b
  let _ ← if level < lo then dropLevel b (lo - min l0 l1) (π.f 6 k) else pure ()
  let t ← alignOperands prm ev c0 c1 y s0 s1 so π
  let p0 ← load t.1 "0"
  let p1 ← load t.2 "0"
  let o ← load b "0"
  store b "0" (evaluate level p0 p1 o)
  let k ← keysOf b
  let outIds ← idSet (π.f 9 k)
  forEach (π.f 10 (GoMap.keys outIds)) (evalStep evaluate level idset0 idset1 t.1 t.2 b) ()

/-- `newCiphertextBinary` (mkckks/evaluator.go 306-313). -/
def newCiphertextBinary (x0 x1 : ℕ) (π : Sched) : HM C ℕ := do
  let a0 ← ctOf x0
  let a1 ← ctOf x1
  let l0 ← level a0
  let l1 ← level a1
  let k ← keysOf a0
  let s0 ← idSet (π.f 0 k)
  let k ← keysOf a1
  let s1 ← idSet (π.f 1 k)
  let s ← lift (s0.Union s1 (π.f 2 (GoMap.keys s0)) (π.f 3 (GoMap.keys s1)))
  let r0 ← scaleOf x0
  let r1 ← scaleOf x1
  newCCiphertext (min l0 l1) (π.f 4 (GoMap.keys s)) (max r0 r1)

/-- `AddNew` and `add` (mkckks/evaluator.go 315-325). -/
def AddNew (prm : CPar C) (ev : HEv C) (x0 x1 : ℕ) (π : Sched) : HM C (HEv C × ℕ) := do
  let y ← newCiphertextBinary x0 x1 (π.sub 0)
  evaluateInPlace prm ev x0 x1 y RPoly.addLvl (π.sub 1)
  return (ev, y)

/-- One iteration of the negation loop of `sub` (mkckks/evaluator.go 337-341). -/
def negStep (level : ℕ) (idset0 : IDSet) (b : ℕ) (id : String) (_ : Unit) : HM C Unit :=
  if !idset0.Has id then do
    let o ← load b id
    store b id (RPoly.negLvl level o o)
  else pure ()

/-- `sub` (mkckks/evaluator.go 329-343). -/
def sub (prm : CPar C) (ev : HEv C) (x0 x1 y : ℕ) (π : Sched) : HM C Unit := do
  evaluateInPlace prm ev x0 x1 y RPoly.subLvl (π.sub 0)
  let a0 ← ctOf x0
  let a1 ← ctOf x1
  let b ← ctOf y
  let l0 ← level a0
  let l1 ← level a1
  let lo ← level b
  let k ← keysOf a0
  let idset0 ← idSet (π.f 1 k)
  let k ← keysOf b
  let outIds ← idSet (π.f 2 k)
  forEach (π.f 3 (GoMap.keys outIds)) (negStep (min (min l0 l1) lo) idset0 b) ()

/-- `SubNew` (mkckks/evaluator.go 346-351). -/
def SubNew (prm : CPar C) (ev : HEv C) (x0 x1 : ℕ) (π : Sched) : HM C (HEv C × ℕ) := do
  let y ← newCiphertextBinary x0 x1 (π.sub 0)
  sub prm ev x0 x1 y (π.sub 1)
  return (ev, y)

/-! ## Rescaling -/

/-- The loop body of `Rescale` (mkckks/evaluator.go 387-390): reads component `id` of `a`, writes
`polyQPool` and component `id` of `b`. -/
def rescaleStep (level nb : ℕ) (pq a b : ℕ) (id : String) (_ : Unit) : HM C Unit := do
  let p0 ← load a id
  let p1 ← load b id
  let pool ← readPoly pq
  let r := divRoundManyLvl level nb p0 pool p1
  writePoly pq r.1
  store b id (r.2.truncate (level + 1 - nb))

/-- `Rescale(ctIn, minScale, ctOut)` (mkckks/evaluator.go 359-398); `x` is `ctIn`, `y` is `ctOut`. -/
def Rescale (prm : CPar C) (ev : HEv C) (x : ℕ) (minScale : ℚ) (y : ℕ) (π : Sched) :
    HM C (Option String) := do
  let a ← ctOf x
  let b ← ctOf y
  let s ← scaleOf x
  if minScale ≤ 0 then return some "cannot Rescale: minScale is 0"
  else if s = 0 then return some "cannot Rescale: ciphertext scale is 0"
  else
    let level ← level a
    if level = 0 then return some "cannot Rescale: input Ciphertext already at level 0"
    else
      let r ← lift (prm.rescaleLoop minScale (level + 1) s 0)
      setScale y r.1
      if 0 < r.2 then
        let k ← keysOf b
        forEach (π.f 0 k) (rescaleStep level r.2 ev.polyQ a b) ()
        return none
      else
        -- `ctOut = ctIn.CopyNew()`: the parameter is rebound, the copy is dropped
        if x = y then return none
        else
          let k ← keysOf a
          let _ ← copyNewC x (π.f 1 k)
          return none

/-- `RescaleNew` (mkckks/evaluator.go 406-411). -/
def RescaleNew (prm : CPar C) (ev : HEv C) (x : ℕ) (threshold : ℚ) (π : Sched) :
    HM C (Option String × HEv C × ℕ) := do
  let a ← ctOf x
  let k ← keysOf a
  let ids ← idSet (π.f 0 k)
  let level ← level a
  let s ← scaleOf x
  let y ← newCCiphertext level (π.f 1 (GoMap.keys ids)) s
  let e ← Rescale prm ev x threshold y (π.sub 2)
  return (e, ev, y)

/-! ## Multiplication by a plaintext -/

/-- The loop body of `MulPtxtNew` (mkckks/evaluator.go 473-477). -/
def mulPtxtStep (level : ℕ) (pq a b : ℕ) (id : String) (_ : Unit) : HM C Unit := do
  let v ← load a id
  let o ← load b id
  store b id (v.nttLvl C.nttQ level o)
  let polyQ ← readPoly pq
  let o ← load b id
  store b id (RPoly.mulMontLvl level o polyQ o)
  let o ← load b id
  store b id (o.invNttLvl C.nttQ level o)

/-- `MulPtxtNew` (mkckks/evaluator.go 465-481); `pt` is the plaintext polynomial, which the function
only reads. -/
def MulPtxtNew (prm : CPar C) (ev : HEv C) (x : ℕ) (pt : RQ C) (ptScale : ℚ) (π : Sched) :
    HM C (HEv C × ℕ) := do
  let a ← ctOf x
  let k ← keysOf a
  let ids ← idSet ((π.sub 0).f 0 k)
  let level ← level a
  let s ← scaleOf x
  let y ← newCCiphertext level ((π.sub 0).f 1 (GoMap.keys ids)) (prm.fl.rnd (s * ptScale))
  let b ← ctOf y
  let polyQ ← readPoly ev.polyQ
  writePoly ev.polyQ (pt.nttLvl C.nttQ level polyQ)
  let polyQ ← readPoly ev.polyQ
  writePoly ev.polyQ (polyQ.mformLvl level polyQ)
  let k ← keysOf a
  forEach ((π.sub 0).f 2 k) (mulPtxtStep level ev.polyQ a b) ()
  let _ ← Rescale prm ev y prm.scale y (π.sub 1)
  return (ev, y)

end Mem

end MK
