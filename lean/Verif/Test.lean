import Verif.Word
import Verif.KeySwitch

/-!
# The unit tests of mkrlwe/mkrlwe_test.go

Each test is a function of the polynomials it samples; the result says whether its assertions
(`require.GreaterOrEqual`, `require.Equal`) hold.  `DefaultSigma` is the constant `3.2`, hence
`Floor(DefaultSigma*6) = 19`.  Modelled: the norm `log2OfInnerSum` and the tests `PKGen`,
`SWKGen`, `RLKGen`, `Encrypt/Pk/…` and `ExternalProductMaxLevel`.
-/

noncomputable section

namespace MK

open Word

/-- The loop over one row (mkrlwe/mkrlwe_test.go 95-114): the sum of the absolute values of the
centred residues, modulo `q`. -/
def innerSumRow {N : ℕ} (q : ℕ) (coeffs : Row N q) : ℕ :=
  (List.finRange N).foldl (fun sum j =>
    let v := (coeffs j).val
    if v ≥ q / 2 then CRed (wsub (wadd sum q) v) q else CRed (wadd sum v) q) 0

/-- One step of the reconstruction (mkrlwe/mkrlwe_test.go 132-146); the state is
`(modulusBigint, sumBigInt)` and `full` is `ringQ.ModulusBigint`.  `ModInverse` is the inverse
modulo `q_i`. -/
def crtStep {N : ℕ} {m : ℕ → ℕ} (full : ℕ) (poly : RPoly N m) (i : ℕ) (st : ℕ × ℕ) : ℕ × ℕ :=
  let crt := full / m i
  let inv := ((crt : ZMod (m i))⁻¹).val
  (st.1 * m i, st.2 + innerSumRow (m i) (poly.row i) * (crt * inv))

/-- `log2OfInnerSum(level, ring, poly)` (mkrlwe/mkrlwe_test.go 91-155).  `n` is the number of
moduli of the ring.  `smallNorm` is set to false before it is tested, so only the branch with
big integers is run. -/
def log2OfInnerSum {N : ℕ} {m : ℕ → ℕ} (n level : ℕ) (poly : RPoly N m) : Go ℕ :=
  if level < n ∧ level < poly.len then
    let (modulus, sum) := forLt (level + 1) (crtStep (∏ i ∈ Finset.range n, m i) poly) (1, 0)
    .ok (Nat.size (sum % modulus))
  else .error .indexRange

variable {C : Ctx}

/-- `ringQP.AddLvl` -/
def QP.addLvl (lq lp : ℕ) (a b out : QP C) : QP C :=
  ⟨RPoly.addLvl lq a.Q b.Q out.Q, RPoly.addLvl lp a.P b.P out.P⟩
/-- `ringQP.InvNTTLvl` -/
def QP.invNttLvl (lq lp : ℕ) (a out : QP C) : QP C :=
  ⟨a.Q.invNttLvl C.nttQ lq out.Q, a.P.invNttLvl C.nttP lp out.P⟩

/-- The two assertions on a polynomial modulo `QP`. -/
def checkQP (bound : ℕ) (v : QP C) : Go Bool := do
  let lQ ← log2OfInnerSum C.nQ C.lq v.Q
  let lP ← log2OfInnerSum C.nP C.lp v.P
  return decide (lQ ≤ bound) && decide (lP ≤ bound)

/-- `PKGen` of `testGenKeyPair` (mkrlwe/mkrlwe_test.go 157-181); `s`, `e` are the samples. -/
def testGenKeyPair (crs : CRS C) (s e : Nega C.N ℤ) : Go Bool := do
  let (sk, pk) ← GenKeyPair crs s e "user"
  let v := QP.mulMontAddLvl C.lq C.lp sk.value pk.value1 pk.value0
  let v := QP.invNttLvl C.lq C.lp v v
  checkQP (Nat.size (19 * C.N)) v

/-- `SWKGen` of `testSwitchKeyGen` (mkrlwe/mkrlwe_test.go 234-285).  `levelP` is
`PCount()-1`, so `pBigInt` is the product of all special primes. -/
def testSwitchKeyGen (poolQ : RQ C) (s : Nega C.N ℤ) (e : ℕ → Nega C.N ℤ) : Go Bool := do
  let sk := GenSecretKey s "User"
  let (_, sg) := GenSwitchingKey poolQ e sk SwKey.new
  let tmp : QP C := QP.new
  let tmp : QP C := { tmp with Q := RPoly.mulScalarLvl C.lq sk.value.Q (C.P : ℤ) tmp.Q }
  let tmp := forLt C.betaMax (fun i tmp => QP.subLvl C.lq C.lp tmp (sg i) tmp) tmp
  let tmp := QP.invMformLvl C.lq C.lp tmp tmp
  let tmp := QP.invNttLvl C.lq C.lp tmp tmp
  checkQP (Nat.size (19 * (C.N * C.betaMax))) tmp

/-- `for i := 0; i < beta; i++ { … require … }`: the test fails at the first violated
assertion. -/
def checkAll (n : ℕ) (f : ℕ → Go Bool) : Go Bool :=
  match n with
  | 0 => .ok true
  | n + 1 => do
    let a ← checkAll n f
    let b ← f n
    return a && b

/-- `RLKGen` of `testRelinKeyGen` (mkrlwe/mkrlwe_test.go 287-360): the verdicts of the three
loops, for `b`, `d` and `v`.  `esg`, `erg` are the errors of `sg`, `rg`; the assertions compare
with `slack + LogN`, where the test has `slack = 5`.  The pools hold anything. -/
def testRelinKeyGen (slack logN : ℕ) (crs : CRS C) (poolQ poolQ' poolQ'' : RQ C) (poolQP : QP C)
    (s r : Nega C.N ℤ) (esg erg eb ed ev : ℕ → Nega C.N ℤ) : Go (Bool × Bool × Bool) := do
  let s := GenSecretKey s "User"
  let r := GenSecretKey r "User"
  let a ← crs.deref 0
  let u ← crs.deref (-1)
  let (_, sg) := GenSwitchingKey poolQ esg s SwKey.new
  let (_, rg) := GenSwitchingKey poolQ' erg r SwKey.new
  let rlk ← GenRelinearizationKey crs poolQ'' poolQP eb ed ev s r
  let b ← checkAll C.betaMax fun i =>
    let x := QP.mulMontAddLvl C.lq C.lp (a i) s.value (rlk.b i)
    let x := QP.invMformLvl C.lq C.lp x x
    let x := QP.invNttLvl C.lq C.lp x x
    checkQP (slack + logN) x
  let d ← checkAll C.betaMax fun i =>
    let x := QP.mulMontAddLvl C.lq C.lp (a i) r.value (rlk.d i)
    let x := QP.subLvl C.lq C.lp x (sg i) x
    let x := QP.invMformLvl C.lq C.lp x x
    let x := QP.invNttLvl C.lq C.lp x x
    checkQP (slack + logN) x
  let v ← checkAll C.betaMax fun i =>
    let x := QP.mulMontAddLvl C.lq C.lp (u i) s.value (rlk.v i)
    let x := QP.addLvl C.lq C.lp x (rg i) x
    let x := QP.invMformLvl C.lq C.lp x x
    let x := QP.invNttLvl C.lq C.lp x x
    checkQP (slack + logN) x
  return (b, d, v)

/-- `rlwe.NewPlaintext(params, level)` with `IsNTT = true`: the zero polynomial. -/
def zeroPlaintext (level : ℕ) : RQ C := { (RPoly.new (level + 1) : RQ C) with isNTT := true }

/-- `testEncryptor` (mkrlwe/mkrlwe_test.go 183-232): the two subtests run the same statements at
`MaxLevel()` (also the one named `MinLevel`) and compare with `slack + LogN`, `slack = 12` and
`slack = 9`. -/
def testEncryptor (slack logN : ℕ) (crs : CRS C) (pool : RQ C) (s e u e0 e1 : Nega C.N ℤ) :
    Go Bool := do
  let user1 := "tetsUser1"
  let (sk, pk) ← GenKeyPair crs s e user1
  let pt : RQ C := zeroPlaintext C.lq
  let (_, ct) ← Encrypt pool u e0 e1 pt pk (Ct.newNTT pt.level [user1])
  let level ← ct.Level
  let cu ← ct.value.deref user1
  let c0 ← ct.value.deref "0"
  let c0 := RPoly.mulMontAddLvl level cu sk.value.Q c0
  let c0 := c0.invNttLvl C.nttQ level c0
  let l ← log2OfInnerSum C.nQ level c0
  return decide (pt.level = level) && decide (l ≤ slack + logN)

/-- `ExternalProductMaxLevel` of `testExternalProduct` (mkrlwe/mkrlwe_test.go 456-505); the test
has `slack = 10`. -/
def testExternalProduct (slack logN : ℕ) (crs : CRS C) (pool poolQ : RQ C)
    (s e u e0 e1 : Nega C.N ℤ) (esg : ℕ → Nega C.N ℤ) : Go Bool := do
  let id := "tetsUser1"
  let sk := GenSecretKey s id
  let pk ← GenPublicKey crs e sk
  let pt : RQ C := zeroPlaintext C.lq
  let (_, ct) ← Encrypt pool u e0 e1 pt pk (Ct.newNTT pt.level [id])
  let level ← ct.Level
  let (_, sg) := GenSwitchingKey poolQ esg sk SwKey.new
  let c0 ← ct.value.deref "0"
  let tmp : RQ C := RPoly.new (level + 1)
  let (_, tmp) := (KS.new : KS C).ExternalProduct level c0 sg tmp
  let tmp := tmp.nttLvl C.nttQ level tmp
  let tmp := RPoly.mulMontSubLvl level c0 sk.value.Q tmp
  let tmp := tmp.invNttLvl C.nttQ level tmp
  let l ← log2OfInnerSum C.nQ tmp.level tmp
  return decide (l ≤ slack + logN)

end MK
