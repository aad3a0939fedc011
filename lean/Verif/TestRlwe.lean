import Verif.TestMore

/-!
# `TestMKRLWE` (mkrlwe/mkrlwe_test.go 53-89)

The tests of `Verif.Test` and `Verif.TestMore` in the order in which `TestMKRLWE` runs them, for a
list of parameter sets.
-/

noncomputable section

namespace MK

variable {C : Ctx}

/-- The samples of a test with a fresh ciphertext and the gadget encryption of its secret
(mkrlwe/mkrlwe_test.go 456-679): `x` for the keys and the ciphertext, `sg` for the errors. -/
structure GadgetDraw (C : Ctx) where
  x : Samples C
  sg : ℕ → Nega C.N ℤ

/-- What the tests of one parameter set sample (mkrlwe/mkrlwe_test.go 76-86), the orders in which they visit
their maps, and the contents `poolQ`, `poolQP`, `pool` of the pools of the key generator and of the
encryptors at each use. -/
structure RlweDraw (C : Ctx) where
  /-- `testGenKeyPair` -/
  kp : Samples C
  /-- `testSwitchKeyGen` -/
  sw : GadgetDraw C
  /-- `testRelinKeyGen`: the two secrets and five lists of errors -/
  rs : Nega C.N ℤ
  rr : Nega C.N ℤ
  esg : ℕ → Nega C.N ℤ
  erg : ℕ → Nega C.N ℤ
  eb : ℕ → Nega C.N ℤ
  ed : ℕ → Nega C.N ℤ
  ev : ℕ → Nega C.N ℤ
  /-- `testEncryptor`, two subtests -/
  enc1 : Samples C
  enc2 : Samples C
  /-- `testDecryptor`: the key pair and the first encryption, the second and third encryption (of which `s`
  and `e` are not used), the two parties of the last subtest -/
  dec1 : Samples C
  dec2 : Samples C
  dec3 : Samples C
  mk1 : Samples C
  mk2 : Samples C
  /-- `testDecompose`, two subtests -/
  dcMax : GadgetDraw C
  dcMin : GadgetDraw C
  /-- `testExternalProduct` -/
  ext : GadgetDraw C
  /-- `testHadamardProduct` -/
  had : GadgetDraw C
  poolQ : ℕ → RQ C
  poolQP : QP C
  pool : ℕ → RQ C
  ids : List String
  ord : ℕ → DecOrd

/-- A parameter set of the list `TestParams` (mkrlwe/mkrlwe_test.go 39) with its reference string
(`NewParameters(params, 2)`, 73) and the samples of its tests. -/
structure RlweSet where
  C : Ctx
  logN : ℕ
  crs : CRS C
  t : RlweDraw C

/-- `testDecryptor` (mkrlwe/mkrlwe_test.go 362-454): one key pair for the first three subtests, whose secret is
also in the set of the last one. -/
def testDecryptor (logN : ℕ) (crs : CRS C) (t : RlweDraw C) : Go Bool := do
  let s := t.dec1.s
  let e := t.dec1.e
  let a ← testDecrypt false 9 logN crs (t.pool 2) s e t.dec1.u t.dec1.e0 t.dec1.e1 (t.ord 0).oC (t.ord 0).oI
    (t.ord 0).oS
  let b ← testDecrypt true 9 logN crs (t.pool 3) s e t.dec2.u t.dec2.e0 t.dec2.e1 (t.ord 1).oC (t.ord 1).oI
    (t.ord 1).oS
  let c ← testDecrypt true 9 logN crs (t.pool 4) s e t.dec3.u t.dec3.e0 t.dec3.e1 (t.ord 2).oC (t.ord 2).oI
    (t.ord 2).oS
  let (d1, d2, d3) ← testDecryptMultikey 9 10 logN crs (t.pool 5) s t.mk1 t.mk2 t.ids (t.ord 3) (t.ord 4)
    (t.ord 5)
  return a && b && c && d1 && d2 && d3

/-- The body of the loop of `TestMKRLWE` after the check of `PCount()` (mkrlwe/mkrlwe_test.go 73-86).  A
failing assertion ends its subtest only, so the verdict is the conjunction of all. -/
def testSet (p : RlweSet) : Go Bool := do
  let t := p.t
  let k ← testGenKeyPair p.crs t.kp.s t.kp.e
  let s ← testSwitchKeyGen (t.poolQ 0) t.sw.x.s t.sw.sg
  let (rb, rd, rv) ← testRelinKeyGen 5 p.logN p.crs (t.poolQ 1) (t.poolQ 2) (t.poolQ 3) t.poolQP t.rs t.rr t.esg
    t.erg t.eb t.ed t.ev
  let e1 ← testEncryptor 12 p.logN p.crs (t.pool 0) t.enc1.s t.enc1.e t.enc1.u t.enc1.e0 t.enc1.e1
  let e2 ← testEncryptor 9 p.logN p.crs (t.pool 1) t.enc2.s t.enc2.e t.enc2.u t.enc2.e0 t.enc2.e1
  let d ← testDecryptor p.logN p.crs t
  let cM ← testDecompose (p.C.nQ - 2) (p.C.beta (p.C.nQ - 1)) 10 p.logN p.crs (t.pool 6) (t.poolQ 4) t.dcMax.x.s
    t.dcMax.x.e t.dcMax.x.u t.dcMax.x.e0 t.dcMax.x.e1 t.dcMax.sg
  let cm ← testDecompose 0 (p.C.beta 0) 10 p.logN p.crs (t.pool 7) (t.poolQ 5) t.dcMin.x.s t.dcMin.x.e
    t.dcMin.x.u t.dcMin.x.e0 t.dcMin.x.e1 t.dcMin.sg
  let x ← testExternalProduct 10 p.logN p.crs (t.pool 8) (t.poolQ 6) t.ext.x.s t.ext.x.e t.ext.x.u t.ext.x.e0
    t.ext.x.e1 t.ext.sg
  let h ← testHadamardProduct 10 p.logN p.crs (t.pool 9) (t.poolQ 7) t.had.x.s t.had.x.e t.had.x.u t.had.x.e0
    t.had.x.e1 t.had.sg
  return k && s && rb && rd && rv && e1 && e2 && d && cM && cm && x && h

/-- `TestMKRLWE` (mkrlwe/mkrlwe_test.go 53-89): sets with fewer than `gamma = 2` special primes are skipped. -/
def testMKRLWE : List RlweSet → Go Bool
  | [] => .ok true
  | p :: ps => do
    let a ← if p.C.nP < 2 then pure true else testSet p
    let b ← testMKRLWE ps
    return a && b

end MK
