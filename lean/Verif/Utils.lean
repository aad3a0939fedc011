import Verif.Word
import Verif.Evaluator

/-!
# mkckks/utils.go and readData (lr/lr.go)
-/

namespace MK.Utils

open MK.Word

/-! ## Bit reversal -/

/-- `for j >= bit { j -= bit; bit >>= 1 }` (mkckks/utils.go 235-238, 257-260, 279-282).  Once `bit`
is 0 the condition holds forever: `none` is non-termination.  `N ≥ 0`, so all values are natural
numbers. -/
def carry (j bit : ℕ) : Option (ℕ × ℕ) :=
  if _h : bit = 0 then none
  else if bit ≤ j then carry (j - bit) (bit / 2)
  else some (j, bit)
termination_by bit
decreasing_by omega

/-- Loop body of `SliceBitReverseInPlace*` for index `i` (mkckks/utils.go 231-245). -/
def revStep {α : Type _} (N i : ℕ) : Option (List α × ℕ) → Go (Option (List α × ℕ))
  | none => .ok none
  | some (slice, j) =>
    match carry j (N / 2) with
    | none => .ok none
    | some (j, bit) =>
      let j := j + bit
      if i < j then do
        let a ← idx slice j
        let b ← idx slice i
        let slice ← upd slice i a
        let slice ← upd slice j b
        return some (slice, j)
      else .ok (some (slice, j))

/-- `SliceBitReverseInPlaceFloat64`, `SliceBitReverseInPlaceComplex128`,
`SliceBitReverseInPlaceRingComplex` (mkckks/utils.go 227-290): the same code for three element
types.  `none` is non-termination. -/
def SliceBitReverse {α : Type _} (slice : List α) (N : ℕ) : Go (Option (List α)) := do
  let st ← forN (N - 1) (fun i => revStep N (i + 1)) (some (slice, 0))
  return st.map Prod.fst

/-! ## Integers -/

/-- The dynamic type and value of the argument of `interfaceMod`. -/
inductive IArg where
  | u64 (x : ℕ)
  | i64 (x : ℤ)
  | big (x : ℤ)
  | other

/-- `int64(x)`: the value of the bit pattern. -/
def asInt64 (x : ℤ) : ℤ := x.bmod (2 ^ 64)

/-- `uint64(x)` of an `int64` -/
def asUint64 (x : ℤ) : ℕ := (x % 2 ^ 64).toNat

/-- `interfaceMod` (mkckks/utils.go 30-57).  Go's `%` truncates (`Int.tmod`), `big.Int.Mod` is
Euclidean. -/
def interfaceMod (x : IArg) (qi : ℕ) : Go ℕ :=
  match x with
  | .u64 x => if qi = 0 then .error (.msg "integer divide by zero") else .ok (x % qi)
  | .i64 x =>
    if 0 < x then .ok (asUint64 x)
    else if x < 0 then
      if asInt64 qi = 0 then .error (.msg "integer divide by zero")
      else .ok (asUint64 (asInt64 (asInt64 qi + x.tmod (asInt64 qi))))
    else .ok 0
  | .big x =>
    if x ≠ 0 then
      if qi = 0 then .error (.msg "division by zero") else .ok (x % qi).toNat
    else .ok 0
  | .other => .error (.msg "constant must either be uint64, int64 or *big.Int")

/-- `genBigIntChain` (mkckks/utils.go 193-202) -/
def genBigIntChain (Q : List ℕ) : Go (List ℕ) := do
  let chain := List.replicate Q.length 0
  let q0 ← idx Q 0
  let chain ← upd chain 0 q0
  forN (Q.length - 1) (fun i chain => do
    let q ← idx Q (i + 1)
    let c ← idx chain i
    upd chain (i + 1) (q * c)) chain

/-- `GenSwitchkeysRescalingParams` (mkckks/utils.go 205-224) -/
def GenSwitchkeysRescalingParams (Q P : List ℕ) : List ℕ :=
  let PBig := P.foldl (fun acc pj => acc * pj) 1
  Q.map fun q => MForm (ModExp (PBig % q) (q - 2) q) q

/-! ## Vectors -/

/-- One entry `coeffs[j][i]` as computed by `scaleUpVecExact` (mkckks/utils.go 97-131), without the
store.  `u64` is the conversion `uint64(x)` of a `float64`, defined by the language only for
`0 ≤ x < 2^64`.  `x % 0` panics; moduli are positive. -/
def scaleUpEntry (F : Fl) (u64 : ℚ → ℕ) (value n : ℚ) (q : ℕ) : ℕ :=
  if 2 ^ 64 < F.rnd (n * |value|) then
    let xFlo := if value < 0 then F.rnd (-n * value) else F.rnd (n * value)
    let xInt := ⌊F.rnd (xFlo + 1 / 2)⌋₊
    if value < 0 then q - xInt % q else xInt % q
  else if value < 0 then q - u64 (F.rnd (F.rnd (-n * value) + 1 / 2)) % q
  else u64 (F.rnd (F.rnd (n * value) + 1 / 2)) % q

/-- `coeffs[j][i] = v` -/
def upd2 (coeffs : List (List ℕ)) (j i v : ℕ) : Go (List (List ℕ)) := do
  let row ← idx coeffs j
  let row ← upd row i v
  upd coeffs j row

/-- `scaleUpVecExact` (mkckks/utils.go 88-142) -/
def scaleUpVecExact (F : Fl) (u64 : ℚ → ℕ) (values : List ℚ) (n : ℚ) (moduli : List ℕ)
    (coeffs : List (List ℕ)) : Go (List (List ℕ)) := do
  let coeffs ← forN values.length (fun i coeffs => do
    let v ← idx values i
    forN moduli.length (fun j coeffs => do
      let q ← idx moduli j
      upd2 coeffs j i (scaleUpEntry F u64 v n q)) coeffs) coeffs
  let c0 ← idx coeffs 0
  if values.length < c0.length then
    forN moduli.length (fun i coeffs =>
      forN (c0.length - values.length) (fun j coeffs => upd2 coeffs i (values.length + j) 0) coeffs)
      coeffs
  else return coeffs

/-! ## Reading the data -/

/-- The tables filled by `readData`; a nil row of `feature_data` is `[]`. -/
structure Table (K : Type _) where
  feature : List (List K)
  label : List K

/-- Loop body for column `j` of data row `i` (lr/lr.go 521-531). -/
def readCol {K : Type _} (parse : String → Option K) (row : List String) (i j : ℕ) (t : Table K) :
    Go (Table K) := do
  let cell ← idx row j
  match parse cell with
  | none => .error (.msg "strconv.ParseFloat")
  | some x =>
    if j ≠ row.length - 1 then do
      let fr ← idx t.feature i
      let fr ← upd fr j x
      let f ← upd t.feature i fr
      return { t with feature := f }
    else do
      let l ← upd t.label i x
      return { t with label := l }

/-- `readData` (lr/lr.go 502-534; lr_minibatch.go 541-573, lr_toy.go 529-561,
lr_minibatch_toy.go 569-601 are the same) from the parsed CSV rows on.  Opening the file and
`csv.Reader.ReadAll` are not modelled; `parse` is `strconv.ParseFloat`, `none` an error. -/
def readData {K : Type _} [Zero K] (parse : String → Option K) (numData numFeature : ℕ)
    (rows : List (List String)) : Go (Table K) :=
  forN rows.length (fun i t => do
    let row ← idx rows i
    if i = 0 then return t
    else do
      let f ← upd t.feature (i - 1) (List.replicate numFeature 0)
      forN row.length (readCol parse row (i - 1)) { t with feature := f })
    ⟨List.replicate numData [], List.replicate numData 0⟩

end MK.Utils
