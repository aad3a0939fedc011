import Verif.Lr
import Verif.Evaluator

/-!
# The programs running on the evaluator

`realHE` is the implementation of `HE` the programs really use: the functions of
`Verif/Evaluator.lean` on one evaluator object, one relinearization key set (whose pools change)
and one rotation key set.
-/

namespace MK.Lr

/-- What changes while a program runs: the evaluator's scratch memory, the pools of the
relinearization key set, the number of operations so far (it selects the iteration orders of the
next operation), and a record of the products: `(min of the operands' levels, level of the
result)`.  The record is not part of the program. -/
structure Mach (C : Ctx) where
  ev : Ev C
  rlk : RlkSet C
  tick : ℕ
  prods : List (ℕ × ℕ)

variable {C : Ctx}

/-- The operations on the evaluator: `MulRelinNew` (mkckks/evaluator.go 416-443), `MulPtxtNew`
(465-481), `AddNew` (322-326), `RotateNew` (485-489).  A plaintext is its polynomial and scale.
`sch t` are the iteration orders of operation `t`. -/
noncomputable def realHE (prm : CPar C) (rkSet : RotationKeySet (RotKey C)) (sch : ℕ → Sched) :
    HE (StateT (Mach C) Go) (CCt C) (RQ C × ℚ) where
  mulRelin same a b := fun m => do
    let (ev, rlk, r) ← m.ev.MulRelinNew prm a b same m.rlk (sch m.tick)
    let la ← a.ct.Level
    let lb ← b.ct.Level
    let l ← r.ct.Level
    return (r, ⟨ev, rlk, m.tick + 1, m.prods ++ [(min la lb, l)]⟩)
  mulPtxt a p := fun m => do
    let (ev, r) ← m.ev.MulPtxtNew prm a p.1 p.2 (sch m.tick)
    let la ← a.ct.Level
    let l ← r.ct.Level
    return (r, ⟨ev, m.rlk, m.tick + 1, m.prods ++ [(la, l)]⟩)
  add a b := fun m => do
    let (ev, r) ← m.ev.AddNew prm a b (sch m.tick)
    return (r, ⟨ev, m.rlk, m.tick + 1, m.prods⟩)
  rotate a k := fun m => do
    let (ev, r) ← m.ev.RotateNew prm a k rkSet (sch m.tick)
    return (r, ⟨ev, m.rlk, m.tick + 1, m.prods⟩)

end MK.Lr
