import Verif.Props.DataCsv

/-!
# C79: what lr.go and lr_minibatch.go compute from lr/data.csv

Tables of the plain training on the file, to fifteen decimals, checked by the kernel.
-/

noncomputable section

namespace MK.Lr

open Finset

/-- `10^15` times `beta` of lr.go after `t` iterations. -/
def lrB : ℕ → List ℤ
  | 0 => [0, 0, 0, 0, 0, 0, 0]
  | 1 =>
  [-162536204271889, -157600459088033, -3676992562977, -6629415956000,
    -5946556498782, 6636034205715, -4216040694976]
  | 2 =>
  [-162536204271889, -157600459088033, -3676992562977, -6629415956000,
    -5946556498782, 6636034205715, -4216040694976]
  | 3 =>
  [-303836845671600, -292821606469487, -7426510088345, -13094736779393,
    -11509430785459, 12144136030630, -7748881640475]
  | 4 =>
  [-157085151731897, -154495399465444, -2873483513744, -5559535393554,
    -5287323407553, 6717972876702, -4226381156797]
  | _ => []

/-- `10^15` times `v` of lr.go after `t` iterations. -/
def lrV : ℕ → List ℤ
  | 0 => [0, 0, 0, 0, 0, 0, 0]
  | 1 =>
  [0, 0, 0, 0,
    0, 0, 0]
  | 2 =>
  [-162536204271889, -157600459088033, -3676992562977, -6629415956000,
    -5946556498782, 6636034205715, -4216040694976]
  | 3 =>
  [6109926355984, 3789631282712, 798157840523, 1087119010382,
    692884159973, 61965958930, 500360183]
  | 4 =>
  [-560621492210353, -534863420223091, -15393350458316, -26279756812320,
    -22396812054245, 21638782055742, -13912517761810]
  | _ => []

/-- `10^15` times `beta` of lr_minibatch.go after `t` iterations. -/
def mbB : ℕ → List ℤ
  | 0 => [0, 0, 0, 0, 0, 0, 0]
  | 1 =>
  [-135204078442216, -133222484210258, -8467575891200, -7156871725247,
    -7569111618441, 6686406565562, -598019956734]
  | 2 =>
  [-228020769634415, -190800670157920, -4984175677914, -6518839042052,
    1165892105345, 9997621205498, -3946931714446]
  | 3 =>
  [-220344326877709, -190016842405066, -8854750032290, -18500077998778,
    -16173444469732, 14570350491354, -9935036291990]
  | 4 =>
  [-350618212132258, -364787683477972, -3033374445441, 5490071814941,
    8537244259428, 2917286642150, 2990536475872]
  | _ => []

/-- `10^15` times `v` of lr_minibatch.go after `t` iterations. -/
def mbV : ℕ → List ℤ
  | 0 => [0, 0, 0, 0, 0, 0, 0]
  | 1 =>
  [0, 0, 0, 0,
    0, 0, 0]
  | 2 =>
  [-77840578784701, -97637437949024, -10620421725017, -7551195064442,
    -12967605969852, 4639976581642, 1471707976885]
  | 3 =>
  [-237182811328498, -191736189744301, -364540680459, 7781093146252,
    21860858469787, 4539945339138, 3200032777676]
  | 4 =>
  [7607614801848, 115795427595894, -19040934820403, -60477802241325,
    -59411960501129, 34960765084053, -32552074265467]
  | _ => []

/-- `10^34` times the inner product of a record with `v`. -/
def fdDot (v : List ℤ) (r : ℕ) : ℤ :=
  Int.add (Int.mul (fdZ r 0) (v.getD 0 0)) (Int.add (Int.mul (fdZ r 1) (v.getD 1 0))
    (Int.add (Int.mul (fdZ r 2) (v.getD 2 0)) (Int.add (Int.mul (fdZ r 3) (v.getD 3 0))
      (Int.add (Int.mul (fdZ r 4) (v.getD 4 0)) (Int.add (Int.mul (fdZ r 5) (v.getD 5 0))
        (Int.mul (fdZ r 6) (v.getD 6 0)))))))

/-- `10^106` times cubic minus label, for the inner product `10^34 x`. -/
def fdRest (x : ℤ) (r : ℕ) : ℤ :=
  Int.add (Int.mul x (Int.add (Int.mul (-15) (Int.mul x x)) 150000000000000000000000000000000000000000000000000000000000000000000000))
    (cond (Nat.beq (Nat.mod r 10) 0)
      (-5000000000000000000000000000000000000000000000000000000000000000000000000000000000000000000000000000000000)
      5000000000000000000000000000000000000000000000000000000000000000000000000000000000000000000000000000000000)

/-- `10^125` times column `j` of the sum of the gradient over the records `l`. -/
def fdGrad (v : List ℤ) (l : List ℕ) (j : ℕ) : ℤ :=
  (l.map fun r => Int.mul (fdRest (fdDot v r) r) (fdZ r j)).foldr Int.add 0

/-- `b` is a gradient step from `v` over the `n` records from `a` on, and the inner products are at most 2. -/
def fdStepOk (a n : ℕ) (v b : List ℤ) : Bool :=
  ((dataCsv.drop a).take n).all (fun r => Nat.ble (Int.natAbs (fdDot v r)) 20000000000000000000000000000000000) &&
  (List.range 7).all fun j => Nat.ble (Int.natAbs ((v.getD j 0 - b.getD j 0) * ((n : ℤ) * 10 ^ 126) -
    3 * 10 ^ 15 * fdGrad v ((dataCsv.drop a).take n) j)) (n * 10 ^ 126)

/-- `v'` is the combination of the new `b'` and the old `b` with weight `eta / 10^6`, and no entry exceeds 1. -/
def fdMomOk (eta : ℤ) (b b' v' : List ℤ) : Bool :=
  (List.range 7).all fun j => decide (|(10 ^ 6 - eta) * b'.getD j 0 + eta * b.getD j 0 - 10 ^ 6 * v'.getD j 0| ≤ 10 ^ 6) &&
    decide (|v'.getD j 0| ≤ 10 ^ 15) && decide (|b'.getD j 0| ≤ 10 ^ 15)

set_option maxRecDepth 20000

theorem lrStep0 : fdStepOk 0 2048 (lrV 0) (lrB 1) = true := by decide +kernel
theorem lrStep1 : fdStepOk 0 2048 (lrV 1) (lrB 2) = true := by
  rw [show lrV 1 = lrV 0 from rfl, show lrB 2 = lrB 1 from rfl]; exact lrStep0
theorem lrStep2 : fdStepOk 0 2048 (lrV 2) (lrB 3) = true := by decide +kernel
theorem lrStep3 : fdStepOk 0 2048 (lrV 3) (lrB 4) = true := by decide +kernel
theorem mbStep0 : fdStepOk 0 512 (mbV 0) (mbB 1) = true := by decide +kernel
theorem mbStep1 : fdStepOk 512 512 (mbV 1) (mbB 2) = true := by decide +kernel
theorem mbStep2 : fdStepOk 1024 512 (mbV 2) (mbB 3) = true := by decide +kernel
theorem mbStep3 : fdStepOk 1536 512 (mbV 3) (mbB 4) = true := by decide +kernel
theorem lrMom0 : fdMomOk 1000000 (lrB 0) (lrB 1) (lrV 1) = true := by decide +kernel
theorem lrMom1 : fdMomOk 1618030 (lrB 1) (lrB 2) (lrV 2) = true := by decide +kernel
theorem lrMom2 : fdMomOk 2193527 (lrB 2) (lrB 3) (lrV 3) = true := by decide +kernel
theorem lrMom3 : fdMomOk 2749790 (lrB 3) (lrB 4) (lrV 4) = true := by decide +kernel
theorem mbMom0 : fdMomOk 1000000 (mbB 0) (mbB 1) (mbV 1) = true := by decide +kernel
theorem mbMom1 : fdMomOk 1618030 (mbB 1) (mbB 2) (mbV 2) = true := by decide +kernel
theorem mbMom2 : fdMomOk 2193527 (mbB 2) (mbB 3) (mbV 3) = true := by decide +kernel
theorem mbMom3 : fdMomOk 2749790 (mbB 3) (mbB 4) (mbV 4) = true := by decide +kernel

/-- The predictions are not near the threshold, and the inner products are at most 2. -/
def fdFar (b : List ℤ) (lo r : ℕ) : Bool := Nat.ble lo (Int.natAbs (fdDot b r)) &&
  Nat.ble (Int.natAbs (fdDot b r)) 20000000000000000000000000000000000

/-- The number of records in `l` that `b` classifies correctly. -/
def fdCount (b : List ℤ) (l : List ℕ) : ℕ :=
  (l.map fun r => cond (xor (decide (0 ≤ fdDot b r)) (Nat.beq (Nat.mod r 10) 0)) 0 1).foldr Nat.add 0

/-- The number of records of class 0. -/
def fdZeros (l : List ℕ) : ℕ := (l.map fun r => cond (Nat.beq (Nat.mod r 10) 0) 1 0).foldr Nat.add 0

/-- Everything that is checked of all records. -/
def fdBlk (l : List ℕ) (lr mb z : ℕ) : Bool :=
  l.all (fdFar (lrB 4) 1130000000000000000000000000000) && l.all (fdFar (mbB 4) 171000000000000000000000000000) &&
  Nat.beq (fdCount (lrB 4) l) lr && Nat.beq (fdCount (mbB 4) l) mb && Nat.beq (fdZeros l) z

theorem fdBlk0 : fdBlk dataBlk0 977 977 977 = true := by decide +kernel
theorem fdBlk1 : fdBlk dataBlk1 971 971 971 = true := by decide +kernel
theorem fdBlk2 : fdBlk dataBlk2 903 896 978 = true := by decide +kernel
theorem fdBlk3 : fdBlk dataBlk3 204 217 973 = true := by decide +kernel
theorem fdBlk4 : fdBlk dataBlk4 134 134 866 = true := by decide +kernel
theorem fdBlk5 : fdBlk dataBlk5 20 20 980 = true := by decide +kernel
theorem fdBlk6 : fdBlk dataBlk6 95 95 977 = true := by decide +kernel
theorem fdBlk7 : fdBlk dataBlk7 109 109 978 = true := by decide +kernel
theorem fdBlk8 : fdBlk dataBlk8 773 772 983 = true := by decide +kernel
theorem fdBlk9 : fdBlk dataBlk9 926 924 978 = true := by decide +kernel

end MK.Lr
