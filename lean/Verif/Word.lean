import Verif.Gadget
import Verif.Float
import Verif.KeySwitch

/-!
# Word-level basis extension (mkrlwe/basis_extension.go)

Words are natural numbers; every `uint64` operation is taken modulo `2^64`.  The code is
unrolled eight times over the coefficients (`N` is a multiple of 8); the eight lanes do the same
computation on different coefficients, so the model is the computation of one lane: a
polynomial is represented by the *column* of words that one coefficient has in the rows of its
moduli.

Contracts of lattigo `ring` (v2.3.0): `MForm(a, q) = a·2^64 mod q`, `ModExp(x, e, q) = x^e mod q`,
`ModexpMontgomery` the same on Montgomery forms, `MRedParams(q) = q^{-1} mod 2^64`.  `MRed` and
`CRed` are modelled instruction by instruction.
-/

namespace MK.Word

/-- `hi, lo = bits.Mul64(a, b)` -/
def mul64 (a b : ℕ) : ℕ × ℕ := (a * b / montR, a * b % montR)

/-- `sum, carry = bits.Add64(a, b, c)` -/
def add64 (a b c : ℕ) : ℕ × ℕ := ((a + b + c) % montR, (a + b + c) / montR)

/-- `a + b` on `uint64` -/
def wadd (a b : ℕ) : ℕ := (a + b) % montR

/-- `a - b` on `uint64` -/
def wsub (a b : ℕ) : ℕ := (a + (montR - b % montR)) % montR

/-- `a * b` on `uint64` -/
def wmul (a b : ℕ) : ℕ := a * b % montR

/-- `ring.MRed(x, y, q, qInv)` (lattigo ring/modular_reduction.go). -/
def MRed (x y q qInv : ℕ) : ℕ :=
  let m := mul64 x y
  let hhi := (mul64 (wmul m.2 qInv) q).1
  let r := wadd (wsub m.1 hhi) q
  if r ≥ q then wsub r q else r

/-- `ring.CRed(a, q)` (lattigo ring/modular_reduction.go). -/
def CRed (a q : ℕ) : ℕ := if a ≥ q then wsub a q else a

/-- `ring.MRedParams(q)`: contract. -/
def MRedParams (q : ℕ) : ℕ := ((q : ZMod montR)⁻¹).val

/-- `ring.MForm(a, q, u)`: contract. -/
def MForm (a q : ℕ) : ℕ := a * montR % q

/-- `ring.ModExp(x, e, p)`: contract. -/
def ModExp (x e p : ℕ) : ℕ := x ^ e % p

/-- `ring.ModexpMontgomery(x, e, q, …)`: contract, `x = a·2^64` gives `a^e·2^64 mod q`. -/
def ModexpMontgomery (x e q : ℕ) : ℕ :=
  (((x : ZMod q) * (montR : ZMod q)⁻¹) ^ e * (montR : ZMod q)).val

/-- `l[i]` -/
def idx {α : Type _} (l : List α) (i : ℕ) : Go α :=
  match l[i]? with
  | some a => .ok a
  | none => .error .indexRange

/-- `l[i] = a` -/
def upd {α : Type _} (l : List α) (i : ℕ) (a : α) : Go (List α) :=
  if i < l.length then .ok (l.set i a) else .error .indexRange

/-- `l[:n]` (the capacity of a row slice is its length) -/
def sliceTo {α : Type _} (l : List α) (n : ℕ) : Go (List α) :=
  if n ≤ l.length then .ok (l.take n) else .error .indexRange

/-- `modupParams` (mkrlwe/basis_extension.go 24-32) -/
structure ModupParams where
  qoverqiinvqi : List ℕ
  qoverqimodp : List (List ℕ)
  vtimesqmodp : List (List ℕ)

/-- The product `∏_{j ≠ i} Q[j]` as accumulated by the loops
(mkrlwe/basis_extension.go 110-116 and 122-128), in which the
factors are Montgomery forms and the accumulator starts at `acc`. -/
def qiStar (Q : List ℕ) (i p : ℕ) (acc : ℕ) : ℕ :=
  (List.range Q.length).foldl (fun acc j => if j ≠ i then
    MRed acc (MForm (Q.getD j 0) p) p (MRedParams p) else acc) acc

/-- `vtimesqmodp[j]` (mkrlwe/basis_extension.go 137-150): the multiples `0, v, 2v, …` of `v = pj - (Q mod pj)`, reduced. -/
def vTable (Q : List ℕ) (pj : ℕ) : List ℕ :=
  let QmodPi := Q.foldl (fun acc qi => MRed acc (MForm qi pj) pj (MRedParams pj)) 1
  let v := wsub pj QmodPi
  (List.range Q.length).foldl (fun t _ => t ++ [CRed (wadd (t.getLastD 0) v) pj]) [0]

/-- `basisextenderparameters` (mkrlwe/basis_extension.go 83-153).  Column `j` of `qoverqimodp` belongs to target prime
`P[j]`. -/
def basisextenderparameters (Q P : List ℕ) : ModupParams where
  qoverqiinvqi := (List.range Q.length).map fun i =>
    let qi := Q.getD i 0
    ModexpMontgomery (qiStar Q i qi (MForm 1 qi)) (qi - 2) qi
  qoverqimodp := P.map fun pj => (List.range Q.length).map fun i => MForm (qiStar Q i pj 1) pj
  vtimesqmodp := P.map fun pj => vTable Q pj

/-- `genModDownParams` (mkrlwe/basis_extension.go 34-54): `params[j][i] = (P[0]⋯P[j])^{-1}·2^64 mod Q[i]`. -/
def genModDownParams (Q P : List ℕ) : List (List ℕ) :=
  (List.range P.length).foldl (fun params j => params ++ [(List.range Q.length).map fun i =>
    let qi := Q.getD i 0
    let c := MForm (ModExp (P.getD j 0) (qi - 2) qi) qi
    if j > 0 then MRed c ((params.getLastD []).getD i 0) qi (MRedParams qi) else c]) []

/-- `FastBasisExtender` (mkrlwe/basis_extension.go 12-22), without the scratch polynomials. -/
structure Extender where
  Q : List ℕ
  P : List ℕ
  paramsQtoP : List ModupParams
  paramsPtoQ : List ModupParams
  modDownparamsPtoQ : List (List ℕ)
  modDownparamsQtoP : List (List ℕ)

/-- `NewFastBasisExtender` (mkrlwe/basis_extension.go 57-81) -/
def newExtender (Q P : List ℕ) : Extender where
  Q := Q
  P := P
  paramsQtoP := (List.range Q.length).map fun i => basisextenderparameters (Q.take (i + 1)) P
  paramsPtoQ := (List.range P.length).map fun i => basisextenderparameters (P.take (i + 1)) Q
  modDownparamsPtoQ := genModDownParams Q P
  modDownparamsQtoP := genModDownParams P Q

/-- One iteration of the floating-point sum: `vi += float64(y) / float64(q)`
(mkrlwe/basis_extension.go 498-505, 561-568). -/
def fstep (F : Fl) (vi : ℚ) (y q : ℕ) : ℚ := F.rnd (vi + F.rnd (F.rnd y / F.rnd q))

/-- The floating-point quotient of a list of pairs `(y_i, q_i)`, truncated by `uint64(·)`
(mkrlwe/basis_extension.go 498-517, 561-578). -/
def fquot (F : Fl) (l : List (ℕ × ℕ)) : ℕ :=
  ⌊l.foldl (fun vi p => fstep F vi p.1 p.2) 0⌋₊

/-- Loop body of `reconstructRNS` (mkrlwe/basis_extension.go 543-569).  State: the array `y` and the float `vi`. -/
def reconStep (F : Fl) (p Q QInv QbMont : List ℕ) (i : ℕ) (st : List ℕ × ℚ) : Go (List ℕ × ℚ) := do
  let c ← idx QbMont i
  let qi ← idx Q i
  let qiInv ← idx QInv i
  let px ← idx p i
  let yi := MRed px c qi qiInv
  let y ← upd st.1 i yi
  pure (y, fstep F st.2 yi qi)

/-- `reconstructRNS` (mkrlwe/basis_extension.go 537-579): fills `y` and returns the quotient `v`. -/
def reconstructRNS (F : Fl) (index : ℕ) (p y Q QInv QbMont : List ℕ) : Go (List ℕ × ℕ) := do
  let st ← forEach (List.range index) (reconStep F p Q QInv QbMont) (y, 0)
  pure (st.1, ⌊st.2⌋₊)

/-- Loop body of `multSum` (mkrlwe/basis_extension.go 588-621): 128-bit accumulation; state `(rlo, rhi)`. -/
def multStep (y w : List ℕ) (i : ℕ) (r : ℕ × ℕ) : Go (ℕ × ℕ) := do
  let yi ← idx y i
  let wi ← idx w i
  let m := mul64 yi wi
  let s := add64 r.1 m.2 0
  pure (s.1, wadd r.2 (wadd m.1 s.2))

/-- `multSum` (mkrlwe/basis_extension.go 582-646). -/
def multSum (v : ℕ) (y : List ℕ) (alpha pj qInv : ℕ) (vt w : List ℕ) : Go ℕ := do
  let r ← forEach (List.range alpha) (multStep y w) (0, 0)
  let t ← idx vt v
  let hhi := (mul64 (wmul r.1 qInv) pj).1
  pure (wadd (wadd (wsub r.2 hhi) pj) t)

/-- The inner loop of `modUpExact` (mkrlwe/basis_extension.go 353-355) over the target primes. -/
def modUpStep (v : ℕ) (y : List ℕ) (alpha : ℕ) (P : List ℕ) (params : ModupParams) (j : ℕ)
    (p2 : List ℕ) : Go (List ℕ) := do
  let pj ← idx P j
  let vt ← idx params.vtimesqmodp j
  let w ← idx params.qoverqimodp j
  let r ← multSum v y alpha pj (MRedParams pj) vt w
  upd p2 j r

/-- `modUpExact` (mkrlwe/basis_extension.go 337-357) on one column; `y` is the content of the `[32]uint64` array. -/
def modUpExact (F : Fl) (y p1 p2 Q P : List ℕ) (params : ModupParams) : Go (List ℕ) := do
  let st ← reconstructRNS F p1.length p1 y Q (Q.map MRedParams) params.qoverqiinvqi
  forEach (List.range p2.length) (modUpStep st.2 st.1 p1.length P params) p2

namespace Extender

/-- `ModUpQtoP` (mkrlwe/basis_extension.go 177-179): writes the first `levelP + 1` words of `polP`. -/
def ModUpQtoP (F : Fl) (e : Extender) (y : List ℕ) (levelQ levelP : ℕ) (polQ polP : List ℕ) :
    Go (List ℕ) := do
  let p1 ← sliceTo polQ (levelQ + 1)
  let p2 ← sliceTo polP (levelP + 1)
  let params ← idx e.paramsQtoP levelQ
  let r ← modUpExact F y p1 p2 e.Q e.P params
  pure (r ++ polP.drop (levelP + 1))

/-- `ModUpPtoQ` (mkrlwe/basis_extension.go 184-186). -/
def ModUpPtoQ (F : Fl) (e : Extender) (y : List ℕ) (levelP levelQ : ℕ) (polP polQ : List ℕ) :
    Go (List ℕ) := do
  let p1 ← sliceTo polP (levelP + 1)
  let p2 ← sliceTo polQ (levelQ + 1)
  let params ← idx e.paramsPtoQ levelP
  let r ← modUpExact F y p1 p2 e.P e.Q params
  pure (r ++ polQ.drop (levelQ + 1))

/-- Loop body of the three ModDown functions (mkrlwe/basis_extension.go 203-229, 250-285, 305-331): one coefficient of
row `i`. -/
def modDownStep (M : List ℕ) (row : List ℕ) (x y : List ℕ) (i : ℕ) (z : List ℕ) : Go (List ℕ) := do
  let qi ← idx M i
  let c ← idx row i
  let xi ← idx x i
  let yi ← idx y i
  upd z i (MRed (wsub (wadd yi (wmul qi 2)) xi) (wsub qi c) qi (MRedParams qi))

/-- `ModDownQPtoQ` (mkrlwe/basis_extension.go 192-232).  `pool` is the column of `polypoolQ`. -/
def ModDownQPtoQ (F : Fl) (e : Extender) (y pool : List ℕ) (levelQ levelP : ℕ)
    (p1Q p1P p2Q : List ℕ) : Go (List ℕ) := do
  let pool ← e.ModUpPtoQ F y levelP levelQ p1P pool
  let row ← idx e.modDownparamsPtoQ levelP
  forEach (List.range (levelQ + 1)) (modDownStep e.Q row p1Q pool) p2Q

/-- `ModDownQPtoP` (mkrlwe/basis_extension.go 294-334).  The inverse table is indexed with `levelP` (mkrlwe/basis_extension.go 313). -/
def ModDownQPtoP (F : Fl) (e : Extender) (y pool : List ℕ) (levelQ levelP : ℕ)
    (p1Q p1P p2P : List ℕ) : Go (List ℕ) := do
  let pool ← e.ModUpQtoP F y levelQ levelP p1Q pool
  let row ← idx e.modDownparamsQtoP levelP
  forEach (List.range (levelP + 1)) (modDownStep e.P row p1P pool) p2P

end Extender

/-! ## The decomposer -/

/-- `int(math.Ceil(float64(a) / float64(b)))` (mkrlwe/basis_extension.go 382-383); exact below `2^53` (C64_ceilDiv).
Division by zero gives infinity in Go and is excluded where it matters. -/
def ceilDiv (a b : ℕ) : ℕ := (a + b - 1) / b

/-- `xalpha` (mkrlwe/basis_extension.go 387-394): the number of primes of block `i`. -/
def xalpha (nQ alpha i : ℕ) : ℕ :=
  if i + 1 = ceilDiv nQ alpha ∧ nQ % alpha ≠ 0 then nQ % alpha else alpha

/-- `NewDecomposer` (mkrlwe/basis_extension.go 368-424): `modUpParams[lvlP][i][j]` for the first `lvlP + 2` special primes,
block `i` and its first `j + 2` primes. -/
def newDecomposer (Q P : List ℕ) (gamma : ℕ) : List (List (List ModupParams)) :=
  (List.range (P.length - 1)).map fun lvlP =>
    let P := P.take (lvlP + 2)
    let alpha := ceilDiv P.length gamma
    let beta := ceilDiv Q.length alpha
    (List.range beta).map fun i =>
      (List.range (xalpha Q.length alpha i - 1)).map fun j =>
        basisextenderparameters ((List.range (j + 2)).map fun k => Q.getD (i * alpha + k) 0) (Q ++ P)

/-- Reconstruction loop of `DecomposeAndSplit` (mkrlwe/basis_extension.go 476-507): like `reconStep`, on the primes
`lvlQStart + i`, and it copies the residues of the block. State: `p1Q`, `y`, `vi`. -/
def decompStep (F : Fl) (p0Q Q : List ℕ) (qoverqiinvqi : List ℕ) (lvlQStart i : ℕ)
    (st : List ℕ × List ℕ × ℚ) : Go (List ℕ × List ℕ × ℚ) := do
  let c ← idx qoverqiinvqi i
  let qi ← idx Q (lvlQStart + i)
  let px ← idx p0Q (lvlQStart + i)
  let p1Q ← upd st.1 (lvlQStart + i) px
  let yi := MRed px c qi (MRedParams qi)
  let y ← upd st.2.1 i yi
  pure (p1Q, y, fstep F st.2.2 yi qi)

/-- A `multSum` into row `j` of `out` with the table entry `u` (mkrlwe/basis_extension.go 520-532). -/
def decompOut (v : ℕ) (y : List ℕ) (len : ℕ) (M : List ℕ) (params : ModupParams) (off : ℕ)
    (j : ℕ) (out : List ℕ) : Go (List ℕ) := do
  let pj ← idx M j
  let vt ← idx params.vtimesqmodp (off + j)
  let w ← idx params.qoverqimodp (off + j)
  let r ← multSum v y len pj (MRedParams pj) vt w
  upd out j r

/-- `DecomposeAndSplit` (mkrlwe/basis_extension.go 428-535) on one column; `tab` is `decomposer.modUpParams`. `beta` is
the digit index.  For `alpha = 0` the code computes `decompLvl = -2` and indexes the table with
`-2`. -/
def DecomposeAndSplit (F : Fl) (tab : List (List (List ModupParams))) (Q P : List ℕ)
    (levelQ levelP alpha beta gamma : ℕ) (y p0Q p1Q p1P : List ℕ) : Go (List ℕ × List ℕ) := do
  if alpha = 0 then .error .indexRange
  let lvlQStart := beta * alpha
  let decompLvl : ℤ := if levelQ > alpha * (beta + 1) - 1 then (alpha : ℤ) - 2
    else ((levelQ % alpha : ℕ) : ℤ) - 1
  if decompLvl = -1 then
    let x ← idx p0Q lvlQStart
    let q ← forEach (List.range (levelQ + 1)) (fun j q => upd q j x) p1Q
    let p ← forEach (List.range (levelP + 1)) (fun j p => upd p j x) p1P
    pure (q, p)
  else
    let len := (decompLvl + 2).toNat
    let t ← idx tab (gamma * alpha - 2)
    let t ← idx t beta
    let params ← idx t decompLvl.toNat
    let st ← forEach (List.range len) (decompStep F p0Q Q params.qoverqiinvqi lvlQStart)
      (p1Q, y, 0)
    let v := ⌊st.2.2⌋₊
    let q ← forEach (List.range lvlQStart) (decompOut v st.2.1 len Q params 0) st.1
    let q ← forEach ((List.range (levelQ + 1 - alpha * beta)).map (alpha * beta + ·))
      (decompOut v st.2.1 len Q params 0) q
    let p ← forEach (List.range (levelP + 1)) (decompOut v st.2.1 len P params Q.length) p1P
    pure (q, p)

end MK.Word
