import Verif.Test

/-!
# The remaining unit tests of mkrlwe/mkrlwe_test.go

`testDecryptor`, `testDecompose` and `testHadamardProduct`, as functions of the polynomials they
sample.  The visiting orders of the maps are arguments.
-/

noncomputable section

namespace MK

variable {C : Ctx}

/-- `rlwe.NewPlaintext(params, level)` with `IsNTT = b`. -/
def zeroPt (level : ℕ) (b : Bool) : RQ C := { (RPoly.new (level + 1) : RQ C) with isNTT := b }

/-- `NewCiphertext`, `NewCiphertextNTT`. -/
def newCt (b : Bool) (level : ℕ) (o : List String) : Ct C :=
  if b then Ct.newNTT level o else Ct.new level o

/-- `InvNTTLvl(plaintext.Level(), plaintext.Value, plaintext.Value)`; the flag is not changed. -/
def invPlain (pt : RQ C) : RQ C := pt.invNttLvl C.nttQ pt.level pt

/-- The subtests `Decrypt/MaxLevel` (`b = false`), `DecryptNTT/MaxLevel` and `Encrypt/MinLevel`
(`b = true`; both run at `MaxLevel()`) of `testDecryptor` (mkrlwe/mkrlwe_test.go 362-410); the
tests have `slack = 9`. -/
def testDecrypt (b : Bool) (slack logN : ℕ) (crs : CRS C) (pool : RQ C)
    (s e u e0 e1 : Nega C.N ℤ) (oC oI oS : List String) : Go Bool := do
  let user1 := "tetsUser1"
  let (sk, pk) ← GenKeyPair crs s e user1
  let skSet := (KeySet.new : KeySet (SecretKey C)).add SecretKey.id sk
  let pt : RQ C := zeroPt C.lq b
  let (_, ct) ← Encrypt pool u e0 e1 pt pk (newCt b pt.level [user1])
  let pt ← Decrypt ct skSet pt oC oI oS
  let level ← ct.Level
  let v := if b then invPlain pt else pt
  let l ← log2OfInnerSum C.nQ level v
  return decide (pt.level = level) && decide (l ≤ slack + logN)

/-- One decryption of `Decrypt/Multikey` with its assertion (mkrlwe/mkrlwe_test.go 440-450).
Returns the plaintext, which the next decryption overwrites, and the verdict. -/
def checkDecrypt (bound : ℕ) (ct : Ct C) (skSet : KeySet (SecretKey C)) (pt : RQ C)
    (oC oI oS : List String) : Go (RQ C × Bool) := do
  let pt ← Decrypt ct skSet pt oC oI oS
  let pt := invPlain pt
  let level ← ct.Level
  let l ← log2OfInnerSum C.nQ level pt
  return (pt, decide (l ≤ bound))

/-- The samples of one party: secret, key error, and the three polynomials of an encryption. -/
structure Samples (C : Ctx) where
  s : Nega C.N ℤ
  e : Nega C.N ℤ
  u : Nega C.N ℤ
  e0 : Nega C.N ℤ
  e1 : Nega C.N ℤ

/-- The visiting orders of one decryption. -/
structure DecOrd where
  oC : List String
  oI : List String
  oS : List String

/-- The subtest `Decrypt/Multikey` of `testDecryptor` (mkrlwe/mkrlwe_test.go 412-453); `s0` is
the secret of the key already in `skSet`.  `ids` is the visiting order of the union of the two
identifier sets.  The results are the three verdicts; the tests have `slack = 9` and
`slack' = 10`. -/
def testDecryptMultikey (slack slack' logN : ℕ) (crs : CRS C) (pool : RQ C) (s0 : Nega C.N ℤ)
    (x y : Samples C) (ids : List String) (o1 o2 o3 : DecOrd) : Go (Bool × Bool × Bool) := do
  let skSet := (KeySet.new : KeySet (SecretKey C)).add SecretKey.id (GenSecretKey s0 "tetsUser1")
  let pt : RQ C := zeroPt C.lq true
  let user1 := "user1"
  let user2 := "user2"
  let (sk1, pk1) ← GenKeyPair crs x.s x.e user1
  let (sk2, pk2) ← GenKeyPair crs y.s y.e user2
  let skSet := skSet.add SecretKey.id sk1
  let skSet := skSet.add SecretKey.id sk2
  let level := pt.level
  let ctOut : Ct C := Ct.newNTT level ids
  let (pool, ct1) ← Encrypt pool x.u x.e0 x.e1 pt pk1 (Ct.newNTT level [user1])
  let (_, ct2) ← Encrypt pool y.u y.e0 y.e1 pt pk2 (Ct.newNTT level [user2])
  let a ← ct1.value.deref "0"
  let b ← ct2.value.deref "0"
  let c ← ctOut.value.deref "0"
  let m := ctOut.value.set "0" (RPoly.addLvl level a b c)
  let p ← ct1.value.deref user1
  let c ← m.deref user1
  let m := m.set user1 (p.copy c)
  let p ← ct2.value.deref user2
  let c ← m.deref user2
  let m := m.set user2 (p.copy c)
  let (pt, r1) ← checkDecrypt (slack + logN) ct1 skSet pt o1.oC o1.oI o1.oS
  let (pt, r2) ← checkDecrypt (slack + logN) ct2 skSet pt o2.oC o2.oI o2.oS
  let (_, r3) ← checkDecrypt (slack' + logN) ⟨m⟩ skSet pt o3.oC o3.oI o3.oS
  return (r1, r2, r3)

/-- `Baseconverter.ModDownQPtoQNTT` with all special primes (the word-level loop of the
repository's copy is `Extender.ModDownQPtoQNTT` in `Verif/Helpers.lean`). -/
def modDownQPtoQNTT (levelQ : ℕ) (x : QP C) (out : RQ C) : RQ C :=
  out.write levelQ fun i => C.nttQ.equiv i (modDown C
    (fun i => (C.nttQ.equiv i).symm (x.Q.row i)) (fun j => (C.nttP.equiv j).symm (x.P.row j)) i)

/-- `testDecompose` (mkrlwe/mkrlwe_test.go 507-610).  The subtest `DecomposeMaxLevel` has
`level = QCount()-2` and `beta = Beta(QCount()-1)`, the subtest `DecomposeMinLevel` `level = 0`
and `beta = Beta(0)`; both have `slack = 10`.  (With one modulus the first panics; the model is
for levels of the chain.) -/
def testDecompose (level beta slack logN : ℕ) (crs : CRS C) (pool poolQ : RQ C)
    (s e u e0 e1 : Nega C.N ℤ) (esg : ℕ → Nega C.N ℤ) : Go Bool := do
  let id := "tetsUser1"
  let sk := GenSecretKey s id
  let pk ← GenPublicKey crs e sk
  let pt : RQ C := zeroPt level true
  let (_, ct) ← Encrypt pool u e0 e1 pt pk (newCt true pt.level [id])
  let (_, sg) := GenSwitchingKey poolQ esg sk SwKey.new
  let level ← ct.Level
  let c0 ← ct.value.deref "0"
  let (_, cd) := (KS.new : KS C).Decompose level c0 SwKey.new
  let tmp : QP C := ⟨RPoly.new (level + 1), RPoly.new (C.lp + 1)⟩
  let tmp := forLt beta (fun i tmp => QP.mulMontAddLvl level C.lp (cd i) (sg i) tmp) tmp
  let v := modDownQPtoQNTT level tmp tmp.Q
  let v := RPoly.mulMontSubLvl level c0 sk.value.Q v
  let v := v.invNttLvl C.nttQ level v
  let l ← log2OfInnerSum C.nQ v.level v
  return decide (l ≤ slack + logN)

/-- `HadamardProductMaxLevel` of `testHadamardProduct` (mkrlwe/mkrlwe_test.go 612-677); the test
has `slack = 10`. -/
def testHadamardProduct (slack logN : ℕ) (crs : CRS C) (pool poolQ : RQ C)
    (s e u e0 e1 : Nega C.N ℤ) (esg : ℕ → Nega C.N ℤ) : Go Bool := do
  let id := "tetsUser1"
  let level := C.lq
  let sk := GenSecretKey s id
  let pk ← GenPublicKey crs e sk
  let pt : RQ C := zeroPt level true
  let (_, ct) ← Encrypt pool u e0 e1 pt pk (newCt true level [id])
  let (_, sg) := GenSwitchingKey poolQ esg sk SwKey.new
  let c0 ← ct.value.deref "0"
  let (ks, cd) := (KS.new : KS C).Decompose level c0 SwKey.new
  let sg := forLt (C.beta level) (fun i sg =>
    let x := QP.mulMontLvl level C.lp (cd i) (sg i) (sg i)
    Function.update sg i (QP.mformLvl level C.lp x x)) sg
  let tmp : RQ C := { (RPoly.new (level + 1) : RQ C) with isNTT := true }
  let (_, tmp) := ks.ExternalProduct level c0 sg tmp
  let tmp := tmp.nttLvl C.nttQ level tmp
  let tmp2 : RQ C := RPoly.new (level + 1)
  let tmp2 := RPoly.mulMontLvl level c0 sk.value.Q tmp2
  let tmp2 := tmp2.mformLvl level tmp2
  let tmp := RPoly.mulMontSubLvl level c0 tmp2 tmp
  let tmp := tmp.invNttLvl C.nttQ level tmp
  let l ← log2OfInnerSum C.nQ tmp.level tmp
  return decide (l ≤ slack + 2 * logN)

end MK
