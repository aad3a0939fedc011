import Verif.Float
import Verif.Lr

/-!
# Integers computed through float64

The counts that the programs obtain from `math.Ceil`, `math.Log2` and `math.Pow`.  The other modules use
the natural numbers that C64 proves these to be.
-/

namespace MK

/-- `int(math.Ceil(float64(a) / float64(b)))` (mkrlwe/params.go 26 and 69, mkrlwe/basis_extension.go 382-383,
lr/lr_minibatch.go 137, lr/lr_minibatch_toy.go 165). -/
def Fl.ceilQuot (F : Fl) (a b : ℕ) : ℤ := ⌈F.rnd (F.rnd a / F.rnd b)⌉

/-- `int(x)` of a float64: truncation towards zero. -/
def truncQ (x : ℚ) : ℤ := if 0 ≤ x then ⌊x⌋ else ⌈x⌉

/-- The functions `math.Log2` and `math.Pow(2, ·)`. -/
structure FMath where
  log2 : ℚ → ℚ
  pow2 : ℚ → ℚ

namespace Lr.Shape

/-- `logslotsPerData` (lr/lr_minibatch.go 130, lr/lr_minibatch_toy.go 158). -/
def flLogSlots (T : FMath) (F : Fl) (s : Shape) : ℤ := ⌈T.log2 (F.rnd s.numFeature)⌉

/-- `slotsPerData` (lr/lr_minibatch.go 131, lr/lr_minibatch_toy.go 159). -/
def flSlotsPerData (T : FMath) (F : Fl) (s : Shape) : ℤ := truncQ (T.pow2 (F.rnd (s.flLogSlots T F)))

/-- `numDataPerCt` (lr/lr_minibatch.go 132, lr/lr_minibatch_toy.go 160). -/
def flNumDataPerCt (T : FMath) (F : Fl) (s : Shape) : ℤ :=
  truncQ (T.pow2 (F.rnd (T.log2 (F.rnd s.numSlots) - F.rnd (s.flLogSlots T F))))

/-- `realnumDataPerCt` (lr/lr_minibatch.go 133-136, lr/lr_minibatch_toy.go 161-164). -/
def flRealnumDataPerCt (T : FMath) (F : Fl) (s : Shape) : ℤ :=
  if (s.batchSize : ℤ) < s.flNumDataPerCt T F then s.batchSize else s.flNumDataPerCt T F

/-- `numCtPerBatch` (lr/lr_minibatch.go 137, lr/lr_minibatch_toy.go 165). -/
def flNumCtPerBatch (T : FMath) (F : Fl) (s : Shape) : ℤ :=
  ⌈F.rnd (F.rnd s.batchSize / F.rnd (s.flNumDataPerCt T F))⌉

end Lr.Shape

end MK
