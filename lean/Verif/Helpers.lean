import Verif.Utils
import Mathlib.Analysis.SpecialFunctions.Sqrt

/-!
# Functions of the repository no program calls

`ModDownQPtoQNTT` and `ShallowCopy` (mkrlwe/basis_extension.go), `StandardDeviation`,
`scaleUpVecExactBigFloat` and `scaleDown` (mkckks/utils.go), `CopyNew` of the keys
(mkrlwe/keys.go), the ternary distribution of `GenSecretKey` (mkrlwe/keygen.go).
-/

namespace MK.Word

/-- The lazy transforms of lattigo for rows of `N` words: `ring.NTTLazy` and `InvNTTLazy` as
functions of the modulus and the row. -/
structure LazyNTT (N : ℕ) where
  fwd : ℕ → (Fin N → ℕ) → Fin N → ℕ
  inv : ℕ → (Fin N → ℕ) → Fin N → ℕ

variable {N : ℕ}

/-- The words of coefficient `n` in all rows. -/
def col (p : List (Fin N → ℕ)) (n : Fin N) : List ℕ := p.map (· n)

/-- Store the words of coefficient `n`. -/
def setCol (p : List (Fin N → ℕ)) (n : Fin N) (c : List ℕ) : List (Fin N → ℕ) :=
  List.zipWith (fun row w => Function.update row n w) p c

namespace Extender

/-- `ModUpPtoQ` (mkrlwe/basis_extension.go 184-186, 337-357) on all coefficients.  The code treats
the coefficients in blocks of 8, every one on its own. -/
def ModUpPtoQRows (F : Fl) (e : Extender) (y : List ℕ) (levelP levelQ : ℕ)
    (polP polQ : List (Fin N → ℕ)) : Go (List (Fin N → ℕ)) :=
  forEach (List.finRange N) (fun n pool => do
    let c ← e.ModUpPtoQ F y levelP levelQ (col polP n) (col pool n)
    pure (setCol pool n c)) polQ

/-- `ringP.InvNTTLazyLvl(levelP, p1P, p1P)` (mkrlwe/basis_extension.go 247). -/
def invRows (T : LazyNTT N) (e : Extender) (levelP : ℕ) (p1P : List (Fin N → ℕ)) :
    Go (List (Fin N → ℕ)) :=
  forEach (List.range (levelP + 1)) (fun j p => do
    let m ← idx e.P j
    let row ← idx p j
    upd p j (T.inv m row)) p1P

/-- Loop body for row `i` (mkrlwe/basis_extension.go 254-285).  State: `polypoolQ` and `p2Q`. -/
def modDownNTTStep (T : LazyNTT N) (e : Extender) (levelP : ℕ) (p1Q : List (Fin N → ℕ)) (i : ℕ)
    (st : List (Fin N → ℕ) × List (Fin N → ℕ)) : Go (List (Fin N → ℕ) × List (Fin N → ℕ)) := do
  let qi ← idx e.Q i
  let x ← idx p1Q i
  let _ ← idx st.2 i
  let p3 ← idx st.1 i
  let row ← idx e.modDownparamsPtoQ levelP
  let c ← idx row i
  let y := T.fwd qi p3
  let pool ← upd st.1 i y
  let z ← upd st.2 i (fun n =>
    MRed (wsub (wadd (y n) (wmul qi 2)) (x n)) (wsub qi c) qi (MRedParams qi))
  pure (pool, z)

/-- `ModDownQPtoQNTT` (mkrlwe/basis_extension.go 239-288).  Returns `p2Q` and the new content of
`p1P`, which is transformed in place. -/
def ModDownQPtoQNTT (F : Fl) (T : LazyNTT N) (e : Extender) (y : List ℕ)
    (pool : List (Fin N → ℕ)) (levelQ levelP : ℕ) (p1Q p1P p2Q : List (Fin N → ℕ)) :
    Go (List (Fin N → ℕ) × List (Fin N → ℕ)) := do
  let p1P ← e.invRows T levelP p1P
  let pool ← e.ModUpPtoQRows F y levelP levelQ p1P pool
  let st ← forEach (List.range (levelQ + 1)) (e.modDownNTTStep T levelP p1Q) (pool, p2Q)
  pure (st.2, p1P)

end Extender

end MK.Word

namespace MK.Utils

open MK.Word

/-- `xFlo.Int(xInt)`: truncation toward zero. -/
def truncQ (x : ℚ) : ℤ := if x < 0 then -⌊-x⌋ else ⌊x⌋

/-- One entry of `scaleUpVecExactBigFloat` (mkckks/utils.go 159-178).  `rnd` is the rounding of
`big.Float` to the precision of `values[0]`; `tmp.Uint64()` is the low word. -/
def scaleUpBig (rnd : ℚ → ℚ) (value scale : ℚ) (q : ℕ) : ℕ :=
  let xFlo := rnd (rnd scale * value)
  let xFlo := if value < 0 then rnd (xFlo - rnd (1 / 2)) else rnd (xFlo + rnd (1 / 2))
  let tmp := truncQ xFlo % q
  let tmp := if value < 0 then tmp + q else tmp
  tmp.toNat % 2 ^ 64

/-- `scaleUpVecExactBigFloat` (mkckks/utils.go 144-182).  Moduli are positive (`Mod` by 0 panics). -/
def scaleUpVecExactBigFloat (rnd : ℚ → ℚ) (values : List ℚ) (scale : ℚ) (moduli : List ℕ)
    (coeffs : List (List ℕ)) : Go (List (List ℕ)) := do
  let _ ← idx values 0
  forN values.length (fun i coeffs => do
    let v ← idx values i
    forN moduli.length (fun j coeffs => do
      let q ← idx moduli j
      upd2 coeffs j i (scaleUpBig rnd v scale q)) coeffs) coeffs

/-- `scaleDown` (mkckks/utils.go 185-191).  `SetInt` is exact.  Division by zero (an infinity or NaN in
Go) is not modelled: here the quotient is then 0. -/
def scaleDown (F : Fl) (coeff : ℤ) (n : ℚ) : ℚ := F.rnd (F.rnd coeff / n)

/-- `StandardDeviation` (mkckks/utils.go 10-28) in exact real arithmetic.  `none` is NaN: `0/0` on
the empty vector. -/
noncomputable def StandardDeviation (vec : List ℝ) (scale : ℝ) : Option ℝ :=
  let n : ℝ := vec.length
  if n = 0 then none
  else
    let mean := vec.foldl (fun mean c => mean + c) 0 / n
    let err := vec.foldl (fun err c => err + (c - mean) * (c - mean)) 0
    some (√(err / n) * scale)

/-- Probability of a coefficient of `ring.NewTernarySampler(prng, ring, p, false)`: `0` with
probability `p`, `1` and `-1` with probability `(1-p)/2` each. -/
def ternary (p : ℚ) (c : ℤ) : ℚ :=
  if c = 0 then p else if c = 1 ∨ c = -1 then (1 - p) / 2 else 0

/-- The parameter `GenSecretKey` (mkrlwe/keygen.go 58-60) passes to `GenSecretKeyWithDistrib`. -/
def genSecretKeyP : ℚ := 1 / 2

end MK.Utils
