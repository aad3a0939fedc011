import Verif.Props.ToyCsvRun

/-!
# C78: what the toy programs compute from lr/toyData.csv

Tables of the plain training on the file, rounded to ten decimals, checked by the kernel.
-/

noncomputable section

namespace MK.Lr

open Finset

/-- `10^16 / sqrt D` for every column, rounded down. -/
def fxW512 : List ℕ :=
  [44832771169, 39086662281186, 2413920974324, 39098610821712, 4268502883620, 39129728382735,
   1072874126495, 6940275372992, 550566944219, 8640851188716, 3176863882606, 44685486624, 46497042206,
   17869914605, 4601757883305, 4305637310284, 3678002331036, 45844557072773, 39112963544931,
   39081587467545]

/-- `10^16 sqrt (511 / (512 D))` for every column, rounded down. -/
def fxW511 : List ℕ :=
  [44788967767, 39048473056356, 2411562477450, 39060409922682, 4264332386401, 39091497080609,
   1071825885770, 6933494447706, 550029018400, 8632408733169, 3173759960142, 44641827125, 46451612745,
   17852454987, 4597261782688, 4301430531253, 3674408776361, 45799765115745, 39074748622719,
   39043403201009]

/-- `10^10 beta` of lr_toy.go. -/
def fxB : List ℤ :=
  [-2529476158, -4013671875, 413742283, -4599609375, -257010560, -4189453125, -1082161193, 8783786,
   97566484, -21062075, -353599842, -2114270410, -1994027835, -8814657317, 186802609, -463394216,
   -763673968, -6445312500, -4013671875, -4453125000]

/-- `10^10 beta` of lr_minibatch_toy.go after two iterations. -/
def fxB1 : List ℤ :=
  [-1801457073, -3398437500, 279213718, -4687500000, 1997706463, -4218750000, -1397526977, 2892567215,
   -1604142444, -2376070504, 988130328, -1882310085, -1003102255, -9512969626, -436165212, -1838861552,
   -634179990, -6914062500, -4335937500, -4570312500]

/-- `10^10` times the inner products of the records 256 to 383 with it. -/
def fxX : List ℤ :=
  [-6314735017, -19794270334, -16299098930, -33559464752, -11649166869, -17078136299, 1614742508,
   16175289146, -15073708169, -6240942746, -21341030280, -21626693676, -18069565315, -4940461462,
   -1415610934, -22321254389, -32293685757, -1669107274, -26428107473, -24412335331, -32557386796,
   -15999392964, 12030293985, -588069688, -24185000994, -29076370876, -18424645740, -8536831138,
   -25413576067, 1189051778, -17595370243, -37419511461, 3846651051, -13859566510, -32982698178,
   -23396827264, -18439381392, -27541911285, -8631905308, -5198796181, -17923723809, -11772766608,
   4751439975, -22033020541, -24428679909, -6150937758, 1799637943, -19635537314, 4852342034, -6862387081,
   -4174616190, -13082061576, 6341331857, -17970322426, -24954535358, 344810101, -35192534382, -1968356767,
   -12717288055, -18795057288, -3853900265, -3807792507, 11029673644, -15884863601, 5271709541,
   -31482974812, -14351521971, 6312881515, 2031971395, 2023209792, -11529553408, -6541584430, -18429808866,
   -13707168231, -4223471471, -13729568729, -17776632359, -8755925187, -12274241069, -18455649397,
   -24552068134, -2075817349, -19632662376, -25826903161, -19834660840, -18949333554, -26474810371,
   -24555182051, 6183193528, -12452824935, -28152833422, -16421890264, -13872907368, -18284592839,
   -12190970938, -16087211189, -4183726151, -17883678067, -17766200733, -8275328767, -8784726252,
   -19045973891, -14121415776, -41825168315, 13403492513, 7138104321, -36831619013, -27785759058,
   -972104225, -4758317800, -32273314092, -22458388376, -20426411475, -23602312558, -20155689230,
   -22375793464, -32798784018, -4520706011, -17221809807, -27542133268, -4577191693, -23313368609,
   10624360312, -40674523690, 747405774, -31306440277, -29213544796, -34860472841]

/-- `10^10 beta` of lr_minibatch_toy.go after three iterations. -/
def fxB2 : List ℤ :=
  [-4845137681, -4437046078, -488633878, -5561475127, 852013375, -4123342768, -1040569859, 1453125406,
   -758751527, -1046131238, 274189126, -4490164410, -2885236650, -14162455658, 734503405, 165066079,
   -583112171, -7750257505, -4342745210, -5564665491]

/-- `10^16` times the standard score of an entry, approximately. -/
def fxZ (w : List ℕ) (r j : ℕ) : ℤ :=
  if toyCols j then ((512 * csvCell r j : ℕ) - csvS1.getD j 0 : ℤ) * w.getD j 0
  else csvCell r j * 10000000000000000

/-- 1 for records of class 0, -1 for the others. -/
def fxSgn (r : ℕ) : ℤ := if csvCell r 20 = 0 then 1 else -1

/-- `10^26` times the inner product of a record with `b`. -/
def fxDot (w : List ℕ) (b : List ℤ) (r : ℕ) : ℤ := ((List.range 20).map fun j => fxZ w r j * b.getD j 0).sum

/-- `10^34` times label minus cubic. -/
def fxRho (x : ℤ) (r : ℕ) : ℤ :=
  (if csvCell r 20 = 0 then 10000000000000000000000000000000000 else 0) -
    (-15 * (x * x * x) + 1500 * x * 100000000000000000000 + 5000000000000000000000000000000000)

theorem fxW512_ok : (List.range 20).all (fun j => decide (fxW512.getD j 0 ^ 2 * (512 * csvD.getD j 0) ≤ 512 * 10 ^ 32) &&
    decide (512 * 10 ^ 32 < (fxW512.getD j 0 + 1) ^ 2 * (512 * csvD.getD j 0))) = true := by decide +kernel

theorem fxW511_ok : (List.range 20).all (fun j => decide (fxW511.getD j 0 ^ 2 * (512 * csvD.getD j 0) ≤ 511 * 10 ^ 32) &&
    decide (511 * 10 ^ 32 < (fxW511.getD j 0 + 1) ^ 2 * (512 * csvD.getD j 0))) = true := by decide +kernel

theorem fxB_ok : (List.range 20).all (fun j => decide
    (|3 * (((toyCsv.drop 0).take 512).map fun r => fxSgn r * fxZ fxW512 r j).sum * 10 ^ 10 -
      2 * 512 * 10 ^ 16 * fxB.getD j 0| ≤ 2 * 512 * 10 ^ 16)) = true := by decide +kernel

theorem fxB1_ok : (List.range 20).all (fun j => decide
    (|3 * (((toyCsv.drop 128).take 128).map fun r => fxSgn r * fxZ fxW511 r j).sum * 10 ^ 10 -
      2 * 128 * 10 ^ 16 * fxB1.getD j 0| ≤ 2 * 128 * 10 ^ 16)) = true := by decide +kernel

theorem fxX_ok : (List.range 128).all (fun t => decide
    (|fxDot fxW511 fxB1 (csvRec (256 + t)) - fxX.getD t 0 * 10 ^ 16| ≤ 10 ^ 16) &&
      decide (|fxX.getD t 0| ≤ 6 * 10 ^ 10)) = true := by decide +kernel

theorem fxB2_ok : (List.range 20).all (fun j => decide
    (|fxB1.getD j 0 * (128 * 10 ^ 50) + 3 * 10 ^ 10 * ((List.range 128).map fun t =>
      fxRho (fxX.getD t 0) (csvRec (256 + t)) * fxZ fxW511 (csvRec (256 + t)) j).sum -
        fxB2.getD j 0 * (128 * 10 ^ 50)| ≤ 128 * 10 ^ 50)) = true := by decide +kernel

theorem fx_toy : |fxDot fxW512 fxB (csvRec 1935) + 1004678 * 10 ^ 20| ≤ 10 ^ 20 ∧ csvCell (csvRec 1935) 20 ≠ 0 := by
  decide +kernel

theorem fx_range : toyCsv.all (fun r => decide (369 * 10 ^ 21 ≤ |fxDot fxW511 fxB2 r|) &&
    decide (|fxDot fxW511 fxB2 r| ≤ 71 * 10 ^ 25)) = true := by decide +kernel

theorem fx_count : (toyCsv.map fun r => if (0 ≤ fxDot fxW511 fxB2 r ↔ csvCell r 20 = 0) then 1 else 0).sum = 1756 := by
  decide +kernel

end MK.Lr
