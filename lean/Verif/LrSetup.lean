import Verif.KeyGen
import Verif.Evaluator
import Verif.CDec

/-!
# `genTestParams` (lr/lr.go 452-500)

The same function is in lr/lr_toy.go 479-527, lr/lr_minibatch.go 491-539 and
lr/lr_minibatch_toy.go 519-567.
-/

noncomputable section

namespace MK.Lr

variable {C : Ctx}

/-- `rots` (lr/lr.go 457) -/
def lrRots : List ℤ := [14, 15, 384, 512, 640, 768, 896, 8191, 8190, 8188, 8184]

/-- The loop of `AddCRS` (lr/lr.go 459-461).  `testContext.params` is a copy of `defaultParam`, but
both share the CRS map.  `sample idx` is the sampled vector; for an index that is already present
(`512`) the old entry is replaced. -/
def addAllCRS (crs : CRS C) (sample : ℤ → SwKey C) : List ℤ → CRS C
  | [] => crs
  | idx :: l => addAllCRS (addCRS crs idx (sample idx)) sample l

/-- `rots` after the loop lr/lr.go 470-472. -/
def allRots (logN : ℕ) : List ℤ := lrRots ++ (List.range (logN - 1)).map fun i => ((2 ^ i : ℕ) : ℤ)

/-- What the key generator samples for one party: secret `s`, public key error, the secret `r`, the
errors of the relinearization key, the errors of the rotation key made in step `t` of the loop;
and what its scratch memory contains before each call (arbitrary: the keys do not depend on it,
C34). -/
structure PartyRand (C : Ctx) where
  s : Nega C.N ℤ
  e : Nega C.N ℤ
  r : Nega C.N ℤ
  eb : ℕ → Nega C.N ℤ
  ed : ℕ → Nega C.N ℤ
  ev : ℕ → Nega C.N ℤ
  erot : ℕ → ℕ → Nega C.N ℤ
  poolQ : RQ C
  poolQP : QP C
  poolRot : ℕ → RQ C

/-- The four key sets of `testParams` (lr/lr.go 64-67). -/
structure KeyBag (C : Ctx) where
  skSet : KeySet (SecretKey C)
  pkSet : KeySet (PublicKey C)
  rlkSet : RlkSet C
  rtkSet : RotationKeySet (RotKey C)

/-- Lines 465-468 of lr/lr.go. -/
def KeyBag.new : KeyBag C := ⟨KeySet.new, KeySet.new, RelinKeySet.new, RotationKeySet.new⟩

/-- The loop over `rots` (lr/lr.go 479-482), from step `t` on. -/
def genRots (crs : CRS C) (rnd : PartyRand C) (sk : SecretKey C) :
    ℕ → List ℤ → RotationKeySet (RotKey C) → Go (RotationKeySet (RotKey C))
  | _, [], set => .ok set
  | t, rot :: l, set => do
    let rk ← GenRotationKey crs (rnd.poolRot t) (rnd.erot t) rot sk
    genRots crs rnd sk (t + 1) l (set.add RotKey.id RotKey.rotIdx rk)

/-- The body of the loop over the parties (lr/lr.go 474-487). -/
def genParty (crs : CRS C) (rots : List ℤ) (rnd : PartyRand C) (id : String) (kb : KeyBag C) :
    Go (KeyBag C) := do
  let (sk, pk) ← GenKeyPair crs rnd.s rnd.e id
  let r := GenSecretKey rnd.r id
  let rlk ← GenRelinearizationKey crs rnd.poolQ rnd.poolQP rnd.eb rnd.ed rnd.ev sk r
  let rtkSet ← genRots crs rnd sk 0 rots kb.rtkSet
  return ⟨kb.skSet.add SecretKey.id sk, kb.pkSet.add PublicKey.id pk,
    kb.rlkSet.add RelinKey.id SwKey.new rlk, rtkSet⟩

/-- The loop over the id set in the order `order` (lr/lr.go 474-488). -/
def genParties (crs : CRS C) (rots : List ℤ) (rnd : String → PartyRand C) :
    List String → KeyBag C → Go (KeyBag C)
  | [], kb => .ok kb
  | id :: l, kb => do
    let kb ← genParty crs rots (rnd id) id kb
    genParties crs rots rnd l kb

/-- `genTestParams` (lr/lr.go 452-500) on the default CRS `crs`: the new CRS and the keys.  `order`
is the order in which the id set is visited.  The encryptor, decryptor and evaluator made at the
end are `CEnc.new`, `CDec.new`, `Ev.new`. -/
def genTestParams (logN : ℕ) (crs : CRS C) (sample : ℤ → SwKey C) (rnd : String → PartyRand C)
    (order : List String) : Go (CRS C × KeyBag C) := do
  let crs := addAllCRS crs sample lrRots
  let kb ← genParties crs (allRots logN) rnd order KeyBag.new
  return (crs, kb)

end MK.Lr
