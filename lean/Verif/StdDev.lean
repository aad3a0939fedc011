import Verif.Helpers
import Verif.Toy

/-!
# `StandardDeviation` in float64
-/

noncomputable section

namespace MK.Utils

/-- `StandardDeviation` (mkckks/utils.go 10-28) with every rounding; `sq` is `math.Sqrt`, `float64(len(vec))`
is exact below `2^53`.  `none` is NaN: `0/0` on the empty vector.  Overflow, and a fused multiplication
and addition (which Go may use on some machines), are not modelled. -/
def stdDevF (F : Fl) (sq : ℝ → ℝ) (vec : List ℝ) (scale : ℝ) : Option ℝ :=
  let n : ℝ := vec.length
  if n = 0 then none
  else
    let mean := F.re (vec.foldl (fun mean c => F.re (mean + c)) 0 / n)
    let err := vec.foldl (fun err c =>
      let tmp := F.re (c - mean)
      F.re (err + F.re (tmp * tmp))) 0
    some (F.re (sq (F.re (err / n)) * scale))

end MK.Utils
