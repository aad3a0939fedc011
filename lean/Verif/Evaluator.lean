import Verif.KeySwitch
import Verif.Float

/-!
# mkckks/evaluator.go (with mkckks/elements.go and the scaling helper of mkckks/utils.go)

The evaluator's pools and the hoisting pools of the relinearization key set are explicit state.
`float64` values are rationals with explicit rounding (`Verif/Float.lean`).  Map iteration
orders come from a schedule.
-/

noncomputable section

namespace MK

variable {C : Ctx}

/-- The iteration orders Go chooses: the `k`-th `range` loop of a call over a map with keys `l`
visits `f k l`. -/
structure Sched where
  f : ℕ → List String → List String
  perm : ∀ k l, (f k l).Perm l

/-- The orders inside the `k`-th nested call. -/
def Sched.sub (π : Sched) (k : ℕ) : Sched := ⟨fun j => π.f (Nat.pair k j), fun _ => π.perm _⟩

/-- `mkckks.Parameters` (mkckks/params.go 8-13) besides the ring data: the CRS, the default
scale, the rounding of `float64`, and `NttPsi[i][1]` (lattigo's bit-reversed table of powers of
the primitive `2N`-th root of unity; entry 1 is its `N/2`-th power), out of Montgomery form. -/
structure CPar (C : Ctx) where
  crs : CRS C
  scale : ℚ
  fl : Fl
  psi : (i : ℕ) → ZMod (C.q i)

/-- `mkckks.Ciphertext` (mkckks/elements.go 5-8). -/
structure CCt (C : Ctx) where
  ct : Ct C
  scale : ℚ

/-- `NewCiphertext` (mkckks/elements.go 11-17). -/
def CCt.new (level : ℕ) (o : List String) (scale : ℚ) : CCt C := ⟨Ct.new level o, scale⟩

/-- `CopyNew` (mkckks/elements.go 30-33). -/
def CCt.CopyNew (ct : CCt C) (o : List String) : Go (CCt C) := do
  let c ← ct.ct.CopyNew o
  return ⟨c, ct.scale⟩

/-- The state of an `Evaluator` (mkckks/evaluator.go 13-18). -/
structure Ev (C : Ctx) where
  ksw : KS C
  pool : Ct C
  polyQ : RQ C

/-- `NewEvaluator` (mkckks/evaluator.go 23-38), for parameters with special primes. -/
def Ev.new : Ev C := ⟨KS.new, Ct.new C.lq [], { RPoly.new C.nQ with isNTT := true }⟩

/-! ## Constants -/

/-- The dynamic type of the `constant` argument. -/
inductive Const where
  | complex (re im : ℚ)
  | f64 (x : ℚ)
  | u64 (n : ℕ)
  | i64 (n : ℤ)
  | int (n : ℤ)
  /-- any other type (`float32`, `uint`, ...): no case of the type switch applies -/
  | other

/-- `int64(x)` of a `float64`: truncation towards zero; out of range values give `-2^63` (amd64). -/
def toInt64 (x : ℚ) : ℤ :=
  let t := if x < 0 then ⌈x⌉ else ⌊x⌋
  if -2 ^ 63 ≤ t ∧ t < 2 ^ 63 then t else -2 ^ 63

/-- `x != 0` and `x - float64(int64(x)) != 0` (mkckks/evaluator.go 50-57, 59-66, 72-79). -/
def needsScale (F : Fl) (x : ℚ) : Prop := x ≠ 0 ∧ F.rnd (x - F.rnd (toInt64 x)) ≠ 0

open Classical in
/-- `getConstAndScale` (mkckks/evaluator.go 40-94). -/
def CPar.getConstAndScale (prm : CPar C) (level : ℕ) : Const → ℚ × ℚ × ℚ
  | .complex re im =>
    (re, im, if needsScale prm.fl re ∨ needsScale prm.fl im then prm.fl.rnd (C.q level) else 1)
  | .f64 x => (x, 0, if needsScale prm.fl x then prm.fl.rnd (C.q level) else 1)
  | .u64 n => (prm.fl.rnd n, 0, 1)
  | .i64 n => (prm.fl.rnd n, 0, 1)
  | .int n => (prm.fl.rnd n, 0, 1)
  | .other => (0, 0, 1)

/-- `scaleUpExact` (mkckks/utils.go 59-86).  `big.NewFloat` keeps the 53-bit product, and the
addition of one half rounds to the same precision; `Int` truncates. -/
def scaleUpExact (F : Fl) (value n : ℚ) (q : ℕ) : ℕ :=
  let isNegative := value < 0
  let x := if isNegative then F.rnd (-n * value) else F.rnd (n * value)
  let x := F.rnd (x + 1 / 2)
  let res := ⌊x⌋₊ % q
  if isNegative then q - res else res

/-- A Go loop `for i := 0; i < n; i++ { s = body(i, s) }` that may panic. -/
def forN {σ : Type _} (n : ℕ) (body : ℕ → σ → Go σ) (s : σ) : Go σ :=
  match n with
  | 0 => .ok s
  | n + 1 => do
    let s ← forN n body s
    body n s

/-- Overwrite the entries of row `i` selected by `sel`. -/
def RPoly.setRow {N : ℕ} {m : ℕ → ℕ} (p : RPoly N m) (i : ℕ) (sel : Fin N → Prop)
    [DecidablePred sel] (f : Row N (m i)) : RPoly N m :=
  { p with row := Function.update p.row i fun j => if sel j then f j else p.row i j }

/-- `z[j] = MRed(x[j], c)` for the selected half of row `i`
(mkckks/evaluator.go 149-168 and 175-194). -/
def mulHalfStep (ct0 : Ct C) (i : ℕ) (sel : Fin C.N → Prop) [DecidablePred sel] (c : ZMod (C.q i))
    (u : String) (out : Ct C) : Go (Ct C) := do
  let p0 ← ct0.value.deref u
  let p1 ← out.value.deref u
  return ⟨out.value.set u (p1.setRow i sel fun j => RPoly.mred (p0.row i j) c)⟩

/-- The scaled constants of modulus `i` for the first and second half, in Montgomery form
(mkckks/evaluator.go 133-147, 170-173). -/
def CPar.scaledConsts (prm : CPar C) (re im sc : ℚ) (i : ℕ) : ZMod (C.q i) × ZMod (C.q i) :=
  let sre : ZMod (C.q i) := if re ≠ 0 then (scaleUpExact prm.fl re sc (C.q i) : ZMod (C.q i)) else 0
  let sim : ZMod (C.q i) := if im ≠ 0 then
    RPoly.mred (scaleUpExact prm.fl im sc (C.q i) : ZMod (C.q i)) ((montR : ZMod (C.q i)) * prm.psi i)
    else 0
  let c1 := if im ≠ 0 then sre + sim else sre
  let m1 := (montR : ZMod (C.q i)) * c1
  (m1, if im ≠ 0 then (montR : ZMod (C.q i)) * (sre + (C.q i - sim)) else m1)

/-- `MultByConst` (mkckks/evaluator.go 117-198).  The inner loops process eight coefficients at
a time, which covers the halves exactly because `N/2` is a multiple of eight. -/
def CPar.MultByConst (prm : CPar C) (ct0 : CCt C) (c : Const) (ctOut : CCt C) (π : Sched) :
    Go (CCt C) := do
  let l0 ← ct0.ct.Level
  let l1 ← ctOut.ct.Level
  let level := min l0 l1
  let (re, im, sc) := prm.getConstAndScale level c
  let out ← forN (level + 1) (fun i out => do
    let (c1, c2) := prm.scaledConsts re im sc i
    let out ← forEach (π.f (2 * i) ct0.ct.value.keys)
      (mulHalfStep ct0.ct i (fun j => j.val < C.N / 2) c1) out
    forEach (π.f (2 * i + 1) ct0.ct.value.keys)
      (mulHalfStep ct0.ct i (fun j => ¬ j.val < C.N / 2) c2) out) ctOut.ct
  return ⟨out, prm.fl.rnd (ct0.scale * sc)⟩

/-! ## Levels -/

/-- `DropLevel` (mkckks/evaluator.go 106-112) for `levels ≥ 0`: `Coeffs[:level+1-levels]` of
every component; a negative bound panics.  (Components are assumed to have the level of the
constant component.) -/
def dropLevel (ct0 : Ct C) (levels : ℕ) (o : List String) : Go (Ct C) := do
  let level ← ct0.Level
  if level + 1 < levels then
    -- the loop body runs at least once: `"0"` is a component
    .error .indexRange
  else
    forEach o (fun id (ct : Ct C) => do
      let p ← ct.value.deref id
      return ⟨ct.value.set id (p.truncate (level + 1 - levels))⟩) ct0

/-- `DropLevelNew` (mkckks/evaluator.go 98-102). -/
def DropLevelNew (ct0 : CCt C) (levels : ℕ) (π : Sched) : Go (CCt C) := do
  let out ← ct0.CopyNew (π.f 0 ct0.ct.value.keys)
  let r ← dropLevel out.ct levels (π.f 1 out.ct.value.keys)
  return ⟨r, out.scale⟩

/-! ## Addition and subtraction -/

/-- The ring operation passed to `evaluateInPlace` (`AddLvl` or `SubLvl`). -/
abbrev PolyOp (C : Ctx) := ℕ → RQ C → RQ C → RQ C → RQ C

/-- `math.Floor(hi/lo)` for scales. -/
def CPar.ratio (prm : CPar C) (hi lo : ℚ) : ℤ := ⌊prm.fl.rnd (hi / lo)⌋

/-- The scale alignment of `evaluateInPlace` (mkckks/evaluator.go 271-290): the operand of
smaller scale is multiplied into the pool.  Returns the pool and the two operands to use. -/
def CPar.alignOperands (prm : CPar C) (c0 c1 : CCt C) (pool : Ct C) (outScale : ℚ) (π : Sched) :
    Go (Ct C × Ct C × Ct C) :=
  if c0.scale < c1.scale ∧ 1 < prm.ratio c1.scale c0.scale then do
    let t ← prm.MultByConst c0 (.f64 (prm.ratio c1.scale c0.scale)) ⟨pool, outScale⟩ (π.sub 7)
    return (t.ct, t.ct, c1.ct)
  else if c1.scale < c0.scale ∧ 1 < prm.ratio c0.scale c1.scale then do
    let t ← prm.MultByConst c1 (.f64 (prm.ratio c0.scale c1.scale)) ⟨pool, outScale⟩ (π.sub 8)
    return (t.ct, c0.ct, t.ct)
  else return (pool, c0.ct, c1.ct)

/-- One iteration of the final loop of `evaluateInPlace` (mkckks/evaluator.go 293-301). -/
def evalStep (evaluate : PolyOp C) (level : ℕ) (idset0 idset1 : IDSet) (tmp0 tmp1 : Ct C)
    (id : String) (out : Ct C) : Go (Ct C) :=
  if !idset0.Has id then do
    let p1 ← tmp1.value.deref id
    let o ← out.value.deref id
    return ⟨out.value.set id (RPoly.copyLvl level p1 o)⟩
  else if !idset1.Has id then do
    let p0 ← tmp0.value.deref id
    let o ← out.value.deref id
    return ⟨out.value.set id (RPoly.copyLvl level p0 o)⟩
  else do
    let p0 ← tmp0.value.deref id
    let p1 ← tmp1.value.deref id
    let o ← out.value.deref id
    return ⟨out.value.set id (evaluate level p0 p1 o)⟩

/-- `evaluateInPlace` (mkckks/evaluator.go 200-304) for an output distinct from both operands,
which is how `AddNew` and `SubNew` call it (no exported function reaches the branches
`ctOut == c0` and `ctOut == c1`).  Returns the evaluator and the output. -/
def Ev.evaluateInPlace (prm : CPar C) (ev : Ev C) (c0 c1 ctOut : CCt C) (evaluate : PolyOp C)
    (π : Sched) : Go (Ev C × CCt C) := do
  let idset0 ← c0.ct.IDSet (π.f 0 c0.ct.value.keys)
  let idset1 ← c1.ct.IDSet (π.f 1 c1.ct.value.keys)
  let idset ← idset0.Union idset1 (π.f 2 (GoMap.keys idset0)) (π.f 3 (GoMap.keys idset1))
  let pool ← ev.pool.PadCiphertext (π.f 4 ev.pool.value.keys) (π.f 5 (GoMap.keys idset))
  let l0 ← c0.ct.Level
  let l1 ← c1.ct.Level
  let lo ← ctOut.ct.Level
  let level := min (min l0 l1) lo
  let out ← if level < lo then dropLevel ctOut.ct (lo - min l0 l1) (π.f 6 ctOut.ct.value.keys)
    else pure ctOut.ct
  let (pool, tmp0, tmp1) ← prm.alignOperands c0 c1 pool ctOut.scale π
  let p0 ← tmp0.value.deref "0"
  let p1 ← tmp1.value.deref "0"
  let o ← out.value.deref "0"
  let out : Ct C := ⟨out.value.set "0" (evaluate level p0 p1 o)⟩
  let outIds ← out.IDSet (π.f 9 out.value.keys)
  let out ← forEach (π.f 10 (GoMap.keys outIds)) (evalStep evaluate level idset0 idset1 tmp0 tmp1) out
  return ({ ev with pool := pool }, ⟨out, ctOut.scale⟩)

/-- `newCiphertextBinary` (mkckks/evaluator.go 306-313). -/
def newCiphertextBinary (op0 op1 : CCt C) (π : Sched) : Go (CCt C) := do
  let l0 ← op0.ct.Level
  let l1 ← op1.ct.Level
  let s0 ← op0.ct.IDSet (π.f 0 op0.ct.value.keys)
  let s1 ← op1.ct.IDSet (π.f 1 op1.ct.value.keys)
  let s ← s0.Union s1 (π.f 2 (GoMap.keys s0)) (π.f 3 (GoMap.keys s1))
  return CCt.new (min l0 l1) (π.f 4 (GoMap.keys s)) (max op0.scale op1.scale)

/-- `AddNew` and `add` (mkckks/evaluator.go 315-325). -/
def Ev.AddNew (prm : CPar C) (ev : Ev C) (op0 op1 : CCt C) (π : Sched) : Go (Ev C × CCt C) := do
  let out ← newCiphertextBinary op0 op1 (π.sub 0)
  ev.evaluateInPlace prm op0 op1 out RPoly.addLvl (π.sub 1)

/-- One iteration of the negation loop of `sub` (mkckks/evaluator.go 337-341). -/
def negStep (level : ℕ) (idset0 : IDSet) (id : String) (out : Ct C) : Go (Ct C) :=
  if !idset0.Has id then do
    let o ← out.value.deref id
    return ⟨out.value.set id (RPoly.negLvl level o o)⟩
  else pure out

/-- `sub` (mkckks/evaluator.go 329-343). -/
def Ev.sub (prm : CPar C) (ev : Ev C) (op0 op1 ctOut : CCt C) (π : Sched) :
    Go (Ev C × CCt C) := do
  let (ev, ctOut) ← ev.evaluateInPlace prm op0 op1 ctOut RPoly.subLvl (π.sub 0)
  let l0 ← op0.ct.Level
  let l1 ← op1.ct.Level
  let lo ← ctOut.ct.Level
  let level := min (min l0 l1) lo
  let idset0 ← op0.ct.IDSet (π.f 1 op0.ct.value.keys)
  let outIds ← ctOut.ct.IDSet (π.f 2 ctOut.ct.value.keys)
  let out ← forEach (π.f 3 (GoMap.keys outIds)) (negStep level idset0) ctOut.ct
  return (ev, ⟨out, ctOut.scale⟩)

/-- `SubNew` (mkckks/evaluator.go 346-351). -/
def Ev.SubNew (prm : CPar C) (ev : Ev C) (op0 op1 : CCt C) (π : Sched) : Go (Ev C × CCt C) := do
  let out ← newCiphertextBinary op0 op1 (π.sub 0)
  ev.sub prm op0 op1 out (π.sub 1)

/-! ## Rescaling -/

/-- The loop of `Rescale` deciding how many moduli to drop (mkckks/evaluator.go 380-383).
`rem = ctIn.Level() - nbRescales + 1` moduli remain; the condition reads
`Modulus[ctIn.Level()-nbRescales]` before it checks that this index is not negative. -/
def CPar.rescaleLoop (prm : CPar C) (minScale : ℚ) (rem : ℕ) (scale : ℚ) (nb : ℕ) :
    Go (ℚ × ℕ) :=
  match rem with
  | 0 => .error .indexRange
  | r + 1 =>
    if minScale / 2 ≤ prm.fl.rnd (scale / prm.fl.rnd (C.q r)) then
      prm.rescaleLoop minScale r (prm.fl.rnd (scale / prm.fl.rnd (C.q r))) (nb + 1)
    else .ok (scale, nb)

/-- The centred representative of a residue modulo an odd number, in
`[-(q-1)/2, (q-1)/2]`: what `(x + (q-1)/2) mod q - (q-1)/2` computes. -/
def centred {q : ℕ} (x : ZMod q) : ℤ := x.valMinAbs

/-- lattigo `DivRoundByLastModulusLvl(level, p0, p1)`: rows below `level` become
`(x_i - [x_level]) / q_level` with the centred remainder.  Contract: the input is left
unchanged. -/
def divRoundLvl (level : ℕ) (p0 p1 : RQ C) : RQ C :=
  { p1 with row := fun i => if i < level then fun j =>
      (p0.row i j - (centred (p0.row level j) : ZMod (C.q i))) * (C.q level : ZMod (C.q i))⁻¹
    else p1.row i }

/-- The middle steps of `DivRoundByLastModulusManyLvl`, on the pool. -/
def divRoundMid (level : ℕ) : ℕ → RQ C → RQ C
  | 0, pool => pool
  | n + 1, pool => divRoundMid (level - 1) n (divRoundLvl level pool pool)

/-- lattigo `DivRoundByLastModulusManyLvl(level, nb, p0, pool, p1)` for `nb ≥ 1`.  Returns the
pool and `p1`. -/
def divRoundManyLvl (level nb : ℕ) (p0 pool p1 : RQ C) : RQ C × RQ C :=
  match nb with
  | 0 => (pool, p1)
  | 1 => (pool, divRoundLvl level p0 p1)
  | n + 2 =>
    let pool := divRoundMid (level - 1) n (divRoundLvl level p0 pool)
    (pool, divRoundLvl (level - 1 - n) pool p1)

/-- The loop body of `Rescale` (mkckks/evaluator.go 387-390).  In place (`same`), the component
read is the one being overwritten. -/
def rescaleStep (level nb : ℕ) (same : Bool) (ctIn : Ct C) (id : String) (s : RQ C × Ct C) :
    Go (RQ C × Ct C) := do
  let (pool, out) := s
  let p0 ← (if same then out else ctIn).value.deref id
  let p1 ← out.value.deref id
  let (pool, p1) := divRoundManyLvl level nb p0 pool p1
  return (pool, ⟨out.value.set id (p1.truncate (level + 1 - nb))⟩)

/-- `Rescale(ctIn, minScale, ctOut)` (mkckks/evaluator.go 359-398).  `same` says whether `ctIn`
and `ctOut` are the same object.  Returns the error (if any), the evaluator and the object
`ctOut` points to in the caller: the assignment `ctOut = ctIn.CopyNew()` only rebinds the
parameter. -/
def Ev.Rescale (prm : CPar C) (ev : Ev C) (ctIn : CCt C) (minScale : ℚ) (ctOut : CCt C)
    (same : Bool) (π : Sched) : Go (Option String × Ev C × CCt C) := do
  if minScale ≤ 0 then return (some "cannot Rescale: minScale is 0", ev, ctOut)
  else if ctIn.scale = 0 then return (some "cannot Rescale: ciphertext scale is 0", ev, ctOut)
  else
    let level ← ctIn.ct.Level
    if level = 0 then
      return (some "cannot Rescale: input Ciphertext already at level 0", ev, ctOut)
    else
      let (scale, nb) ← prm.rescaleLoop minScale (level + 1) ctIn.scale 0
      if 0 < nb then
        let (polyQ, out) ← forEach (π.f 0 ctOut.ct.value.keys)
          (rescaleStep level nb same ctIn.ct) (ev.polyQ, ctOut.ct)
        return (none, { ev with polyQ := polyQ }, ⟨out, scale⟩)
      else
        -- `ctOut = ctIn.CopyNew()` when `ctIn != ctOut`: the copy is dropped
        let _ ← if same then pure ctIn else ctIn.CopyNew (π.f 1 ctIn.ct.value.keys)
        return (none, ev, ⟨ctOut.ct, scale⟩)

/-- In-place `Rescale(ct, minScale, ct)`. -/
def Ev.rescaleSelf (prm : CPar C) (ev : Ev C) (ct : CCt C) (minScale : ℚ) (π : Sched) :
    Go (Option String × Ev C × CCt C) := ev.Rescale prm ct minScale ct true π

/-- `RescaleNew` (mkckks/evaluator.go 406-411). -/
def Ev.RescaleNew (prm : CPar C) (ev : Ev C) (ct0 : CCt C) (threshold : ℚ) (π : Sched) :
    Go (Option String × Ev C × CCt C) := do
  let ids ← ct0.ct.IDSet (π.f 0 ct0.ct.value.keys)
  let level ← ct0.ct.Level
  let out : CCt C := CCt.new level (π.f 1 (GoMap.keys ids)) ct0.scale
  ev.Rescale prm ct0 threshold out false (π.sub 2)

/-! ## Multiplication -/

/-- The loop body of `MulPtxtNew` (mkckks/evaluator.go 473-477). -/
def mulPtxtStep (level : ℕ) (ct : Ct C) (polyQ : RQ C) (id : String) (out : Ct C) : Go (Ct C) := do
  let a ← ct.value.deref id
  let o ← out.value.deref id
  let o := a.nttLvl C.nttQ level o
  let o := RPoly.mulMontLvl level o polyQ o
  let o := o.invNttLvl C.nttQ level o
  return ⟨out.value.set id o⟩

/-- `MulPtxtNew` up to the call of `Rescale` (mkckks/evaluator.go 465-477); `pt` is the
plaintext polynomial, followed by its scale. -/
def Ev.mulPtxtCore (prm : CPar C) (ev : Ev C) (ct : CCt C) (pt : RQ C) (ptScale : ℚ) (π : Sched) :
    Go (Ev C × CCt C) := do
  let ids ← ct.ct.IDSet (π.f 0 ct.ct.value.keys)
  let level ← ct.ct.Level
  let out : CCt C := CCt.new level (π.f 1 (GoMap.keys ids)) (prm.fl.rnd (ct.scale * ptScale))
  let polyQ := pt.nttLvl C.nttQ level ev.polyQ
  let polyQ := polyQ.mformLvl level polyQ
  let res ← forEach (π.f 2 ct.ct.value.keys) (mulPtxtStep level ct.ct polyQ) out.ct
  return ({ ev with polyQ := polyQ }, ⟨res, out.scale⟩)

/-- `MulPtxtNew` (mkckks/evaluator.go 465-481).  The error of `Rescale` is ignored. -/
def Ev.MulPtxtNew (prm : CPar C) (ev : Ev C) (ct : CCt C) (pt : RQ C) (ptScale : ℚ) (π : Sched) :
    Go (Ev C × CCt C) := do
  let (ev, out) ← ev.mulPtxtCore prm ct pt ptScale (π.sub 0)
  let (_, ev, r) ← ev.rescaleSelf prm out prm.scale (π.sub 1)
  return (ev, r)

/-- The visiting orders of a multiplication (see `MulOrd`). -/
def Sched.mulOrd (π : Sched) (op0 op1 out : Ct C) : MulOrd where
  i0 := π.f 0 op0.value.keys
  i1 := π.f 1 op1.value.keys
  x := π.f 2 (op0.value.keys.filter (· ≠ "0"))
  y := π.f 3 (op1.value.keys.filter (· ≠ "0"))
  t0 := π.f 4 (op0.value.keys.filter (· ≠ "0"))
  t1 := π.f 5 (op1.value.keys.filter (· ≠ "0"))
  inv := π.f 6 out.value.keys
  e1 := π.f 7 (op1.value.keys.filter (· ≠ "0"))
  e0 := π.f 8 (op0.value.keys.filter (· ≠ "0"))

/-- The relinearization key set with its hoisting pools. -/
abbrev RlkSet (C : Ctx) := RelinKeySet (RelinKey C) (SwKey C)

/-- `mulRelinHoisted` (mkckks/evaluator.go 570-581). -/
def Ev.mulRelinHoisted (prm : CPar C) (ev : Ev C) (op0 op1 : CCt C) (h0 h1 : Option (HoistedCt C))
    (rlk : RlkSet C) (ctOut : CCt C) (π : Sched) : Go (Ev C × CCt C) := do
  let l0 ← op0.ct.Level
  let l1 ← op1.ct.Level
  let lo ← ctOut.ct.Level
  let level := min (min l0 l1) lo
  let out ← if level < lo then dropLevel ctOut.ct (lo - level) (π.f 0 ctOut.ct.value.keys)
    else pure ctOut.ct
  let scale := prm.fl.rnd (op0.scale * op1.scale)
  let (ksw, out) ← ev.ksw.MulAndRelinHoisted prm.crs op0.ct op1.ct h0 h1 rlk out
    ((π.sub 1).mulOrd op0.ct op1.ct out)
  let (_, ev, r) ← ({ ev with ksw := ksw } : Ev C).rescaleSelf prm ⟨out, scale⟩ prm.scale (π.sub 2)
  return (ev, r)

/-- `MulRelinHoistedNew` (mkckks/evaluator.go 558-564). -/
def Ev.MulRelinHoistedNew (prm : CPar C) (ev : Ev C) (op0 op1 : CCt C)
    (h0 h1 : Option (HoistedCt C)) (rlk : RlkSet C) (π : Sched) : Go (Ev C × CCt C) := do
  let out ← newCiphertextBinary op0 op1 (π.sub 0)
  ev.mulRelinHoisted prm op0 op1 h0 h1 rlk ⟨out.ct, 0⟩ (π.sub 1)

/-- The loops of `MulRelinNew` storing digits in a hoisting pool
(mkckks/evaluator.go 422-424, 432-434, 436-438). -/
def hoistInto (level : ℕ) (op : Ct C) (o : List String) (s : KS C × HoistedCt C) :
    Go (KS C × HoistedCt C) :=
  forEach o (fun id (s : KS C × HoistedCt C) => do
    let a ← op.value.deref id
    let ad ← s.2.deref id
    let (ks, ad) := s.1.Decompose level a ad
    return (ks, s.2.set id ad)) s

/-- `MulRelinNew` (mkckks/evaluator.go 416-443).  `same` says whether both operands are the same
object.  Returns also the key set, whose pools have changed. -/
def Ev.MulRelinNew (prm : CPar C) (ev : Ev C) (op0 op1 : CCt C) (same : Bool) (rlk : RlkSet C)
    (π : Sched) : Go (Ev C × RlkSet C × CCt C) := do
  if same then
    let ids ← op0.ct.IDSet (π.f 0 op0.ct.value.keys)
    let l0 ← op0.ct.Level
    let (ks, p0) ← hoistInto l0 op0.ct (π.f 1 (GoMap.keys ids)) (ev.ksw, rlk.pool0)
    let rlk := { rlk with pool0 := p0 }
    let (ev, r) ← ({ ev with ksw := ks } : Ev C).MulRelinHoistedNew prm op0 op1 (some rlk.pool0)
      (some rlk.pool0) rlk (π.sub 2)
    return (ev, rlk, r)
  else
    let ids0 ← op0.ct.IDSet (π.f 0 op0.ct.value.keys)
    let ids1 ← op1.ct.IDSet (π.f 3 op1.ct.value.keys)
    let l0 ← op0.ct.Level
    let (ks, p0) ← hoistInto l0 op0.ct (π.f 1 (GoMap.keys ids0)) (ev.ksw, rlk.pool0)
    let l1 ← op1.ct.Level
    let (ks, p1) ← hoistInto l1 op1.ct (π.f 4 (GoMap.keys ids1)) (ks, rlk.pool1)
    let rlk := { rlk with pool0 := p0, pool1 := p1 }
    let (ev, r) ← ({ ev with ksw := ks } : Ev C).MulRelinHoistedNew prm op0 op1 (some rlk.pool0)
      (some rlk.pool1) rlk (π.sub 2)
    return (ev, rlk, r)

/-- `mulRelin` (mkckks/evaluator.go 449-460); not reachable from exported functions. -/
def Ev.mulRelin (prm : CPar C) (ev : Ev C) (op0 op1 : CCt C) (rlk : RlkSet C) (ctOut : CCt C)
    (π : Sched) : Go (Ev C × CCt C) := do
  let l0 ← op0.ct.Level
  let l1 ← op1.ct.Level
  let lo ← ctOut.ct.Level
  let level := min (min l0 l1) lo
  let out ← if level < lo then dropLevel ctOut.ct (lo - level) (π.f 0 ctOut.ct.value.keys)
    else pure ctOut.ct
  let scale := prm.fl.rnd (op0.scale * op1.scale)
  let (ksw, out) ← ev.ksw.MulAndRelin prm.crs op0.ct op1.ct rlk out
    ((π.sub 1).mulOrd op0.ct op1.ct out)
  let (_, ev, r) ← ({ ev with ksw := ksw } : Ev C).rescaleSelf prm ⟨out, scale⟩ prm.scale (π.sub 2)
  return (ev, r)

/-! ## Rotation and conjugation -/

/-- The visiting orders of a rotation (see `RotOrd`). -/
def Sched.rotOrd (π : Sched) (ctIn : Ct C) : RotOrd where
  i := π.f 0 ctIn.value.keys
  k := π.f 1 (ctIn.value.keys.filter (· ≠ "0"))
  k2 := π.f 2 (ctIn.value.keys.filter (· ≠ "0"))
  p := π.f 3 ctIn.value.keys

/-- `for rotidx >= N/2 { rotidx -= N/2 }` (mkckks/evaluator.go 496-498, 596-598). -/
def normUp (half : ℕ) (r : ℤ) : ℤ :=
  if (half : ℤ) ≤ r ∧ 0 < half then normUp half (r - half) else r
termination_by r.toNat
decreasing_by omega

/-- Both normalisation loops (mkckks/evaluator.go 495-503, 595-603). -/
def normIdx (half : ℕ) (r : ℤ) : ℤ := normRot half (normUp half r)

/-- The binary loop of `rotate` (mkckks/evaluator.go 516-523): `r` is the remaining index, `k`
the current power of two, `j` counts iterations. -/
def Ev.rotBits (prm : CPar C) (rkSet : RotationKeySet (RotKey C)) (π : Sched) (r k j : ℕ)
    (s : Ev C × Ct C × Ct C) : Go (Ev C × Ct C × Ct C) :=
  if 0 < r then do
    let s ← if r % 2 ≠ 0 then do
        let (ev, tmp, out) := s
        let (ksw, out) ← ev.ksw.Rotate prm.crs tmp k rkSet out (((π.sub (2 * j)).rotOrd tmp))
        let tmp ← tmp.Copy out (π.f (2 * j + 1) out.value.keys)
        pure (({ ev with ksw := ksw } : Ev C), tmp, out)
      else pure s
    Ev.rotBits prm rkSet π (r / 2) (k * 2) (j + 1) s
  else pure s
termination_by r
decreasing_by omega

/-- `rotate` (mkckks/evaluator.go 493-525). -/
def Ev.rotate (prm : CPar C) (ev : Ev C) (ct0 : CCt C) (rotidx : ℤ)
    (rkSet : RotationKeySet (RotKey C)) (ctOut : CCt C) (π : Sched) : Go (Ev C × CCt C) := do
  let rotidx := normIdx (C.N / 2) rotidx
  if rotidx = 0 then
    let out ← ctOut.ct.Copy ct0.ct (π.f 0 ct0.ct.value.keys)
    return (ev, ⟨out, ctOut.scale⟩)
  else if prm.crs.has rotidx then
    let (ksw, out) ← ev.ksw.Rotate prm.crs ct0.ct rotidx rkSet ctOut.ct ((π.sub 1).rotOrd ct0.ct)
    return ({ ev with ksw := ksw }, ⟨out, ctOut.scale⟩)
  else
    let tmp ← ct0.CopyNew (π.f 2 ct0.ct.value.keys)
    let (ev, _, out) ← Ev.rotBits prm rkSet (π.sub 3) rotidx.toNat 1 0 (ev, tmp.ct, ctOut.ct)
    return (ev, ⟨out, ctOut.scale⟩)

/-- `RotateNew` (mkckks/evaluator.go 485-489). -/
def Ev.RotateNew (prm : CPar C) (ev : Ev C) (ct0 : CCt C) (rotidx : ℤ)
    (rkSet : RotationKeySet (RotKey C)) (π : Sched) : Go (Ev C × CCt C) := do
  let ids ← ct0.ct.IDSet (π.f 0 ct0.ct.value.keys)
  let level ← ct0.ct.Level
  ev.rotate prm ct0 rotidx rkSet (CCt.new level (π.f 1 (GoMap.keys ids)) ct0.scale) (π.sub 2)

/-- `rotateHoisted` (mkckks/evaluator.go 593-617). -/
def Ev.rotateHoisted (prm : CPar C) (ev : Ev C) (ct0 : CCt C) (rotidx : ℤ) (H : HoistedCt C)
    (rkSet : RotationKeySet (RotKey C)) (ctOut : CCt C) (π : Sched) : Go (Ev C × CCt C) := do
  let rotidx := normIdx (C.N / 2) rotidx
  if rotidx = 0 then
    let out ← ctOut.ct.Copy ct0.ct (π.f 0 ct0.ct.value.keys)
    return (ev, ⟨out, ctOut.scale⟩)
  else if prm.crs.has rotidx then
    let (ksw, out) ← ev.ksw.RotateHoisted prm.crs ct0.ct rotidx H rkSet ctOut.ct
      ((π.sub 1).rotOrd ct0.ct)
    return ({ ev with ksw := ksw }, ⟨out, ctOut.scale⟩)
  else .error (.msg "Hoisted rotation only works for precomputed rotation keys")

/-- `RotateHoistedNew` (mkckks/evaluator.go 585-589). -/
def Ev.RotateHoistedNew (prm : CPar C) (ev : Ev C) (ct0 : CCt C) (rotidx : ℤ) (H : HoistedCt C)
    (rkSet : RotationKeySet (RotKey C)) (π : Sched) : Go (Ev C × CCt C) := do
  let ids ← ct0.ct.IDSet (π.f 0 ct0.ct.value.keys)
  let level ← ct0.ct.Level
  ev.rotateHoisted prm ct0 rotidx H rkSet (CCt.new level (π.f 1 (GoMap.keys ids)) ct0.scale) (π.sub 2)

/-- `ConjugateNew` and `conjugate` (mkckks/evaluator.go 530-540). -/
def Ev.ConjugateNew (prm : CPar C) (ev : Ev C) (ct0 : CCt C) (ckSet : KeySet (ConjKey C))
    (π : Sched) : Go (Ev C × CCt C) := do
  let ids ← ct0.ct.IDSet (π.f 0 ct0.ct.value.keys)
  let level ← ct0.ct.Level
  let out : CCt C := CCt.new level (π.f 1 (GoMap.keys ids)) ct0.scale
  let (ksw, r) ← ev.ksw.Conjugate prm.crs ct0.ct ckSet out.ct ((π.sub 2).rotOrd ct0.ct)
  return ({ ev with ksw := ksw }, ⟨r, out.scale⟩)

/-- `HoistedForm` (mkckks/evaluator.go 543-553). -/
def Ev.HoistedForm (ev : Ev C) (ct : CCt C) (π : Sched) : Go (Ev C × HoistedCt C) := do
  let ids ← ct.ct.IDSet (π.f 0 ct.ct.value.keys)
  let (ks, H) ← forEach (π.f 1 (GoMap.keys ids)) (fun id (s : KS C × HoistedCt C) => do
    let H := s.2.set id SwKey.new
    let level ← ct.ct.Level
    let a ← ct.ct.value.deref id
    let ad ← H.deref id
    let (ks, ad) := s.1.Decompose level a ad
    return (ks, H.set id ad)) (ev.ksw, GoMap.empty)
  return ({ ev with ksw := ks }, H)

end MK
