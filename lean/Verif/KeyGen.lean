import Verif.EncDec
import Mathlib.Data.ZMod.ValMinAbs
import Mathlib.FieldTheory.Finite.Basic

/-!
# mkrlwe/params.go and mkrlwe/keygen.go

Sampled polynomials are arguments.  The key generator's pools `poolQ`, `poolQP` are explicit
arguments with arbitrary content.
-/

noncomputable section

namespace MK

/-! ## Parameters -/

/-- `Alpha()` (mkrlwe/params.go 63-65): integer division `PCount()/gamma`. -/
def Ctx.alpha (C : Ctx) : ℕ := C.nP / C.gamma

/-- `Beta(levelQ)` (mkrlwe/params.go 67-71): `ceil((levelQ+1)/alpha)`.  The code computes the
quotient in float64; the rounded quotient has the same ceiling (C64_beta). -/
def Ctx.beta (C : Ctx) (levelQ : ℕ) : ℕ := (levelQ + C.alpha) / C.alpha

/-- The number of digits of a full-level key. -/
abbrev Ctx.betaMax (C : Ctx) : ℕ := C.beta (C.nQ - 1)

/-- `RingP().ModulusBigint`: the product of the special primes. -/
def Ctx.P (C : Ctx) : ℕ := ∏ j ∈ Finset.range C.nP, C.p j

/-- The CRS map of `mkrlwe.Parameters` (mkrlwe/params.go 10): `map[int]*SwitchingKey`. -/
abbrev CRS (C : Ctx) := GoMap ℤ (SwKey C)

variable {C : Ctx}

/-- The default CRS indices (mkrlwe/params.go 37-46). -/
def crsIdxs (logN : ℕ) : List ℤ :=
  [0, -1, -2, -3, -4] ++ (List.range (logN - 1)).map fun i => ((2 ^ i : ℕ) : ℤ)

/-- The loop over `idxs` in `NewParameters` (mkrlwe/params.go 49-58); `sample idx` is the
uniformly sampled vector after `MFormLvl` (the Montgomery factor is a bijection, so this is
again an arbitrary vector). -/
def crsLoop (sample : ℤ → SwKey C) (crs : CRS C) : List ℤ → CRS C
  | [] => crs
  | idx :: l => crsLoop sample (crs.set idx (sample idx)) l

/-- The CRS part of `NewParameters` (mkrlwe/params.go 16-61). -/
def newCRS (logN : ℕ) (sample : ℤ → SwKey C) : CRS C :=
  crsLoop sample GoMap.empty (crsIdxs logN)

/-- `AddCRS` (mkrlwe/params.go 77-99). -/
def addCRS (crs : CRS C) (idx : ℤ) (sample : SwKey C) : CRS C := crs.set idx sample

/-! ## PolyQP operations -/

namespace QP

/-- `ringQP.NewPoly()` -/
def new : QP C := ⟨RPoly.new C.nQ, RPoly.new C.nP⟩

/-- `ringQP.NTTLvl` -/
def nttLvl (lq lp : ℕ) (a out : QP C) : QP C :=
  ⟨a.Q.nttLvl C.nttQ lq out.Q, a.P.nttLvl C.nttP lp out.P⟩
/-- `ringQP.MFormLvl` -/
def mformLvl (lq lp : ℕ) (a out : QP C) : QP C :=
  ⟨a.Q.mformLvl lq out.Q, a.P.mformLvl lp out.P⟩
/-- `ringQP.InvMFormLvl` -/
def invMformLvl (lq lp : ℕ) (a out : QP C) : QP C :=
  ⟨a.Q.invMformLvl lq out.Q, a.P.invMformLvl lp out.P⟩
/-- `ringQP.SubLvl` -/
def subLvl (lq lp : ℕ) (a b out : QP C) : QP C :=
  ⟨RPoly.subLvl lq a.Q b.Q out.Q, RPoly.subLvl lp a.P b.P out.P⟩
/-- `ringQP.MulCoeffsMontgomeryLvl` -/
def mulMontLvl (lq lp : ℕ) (a b out : QP C) : QP C :=
  ⟨RPoly.mulMontLvl lq a.Q b.Q out.Q, RPoly.mulMontLvl lp a.P b.P out.P⟩
/-- `ringQP.MulCoeffsMontgomeryAndAddLvl` -/
def mulMontAddLvl (lq lp : ℕ) (a b out : QP C) : QP C :=
  ⟨RPoly.mulMontAddLvl lq a.Q b.Q out.Q, RPoly.mulMontAddLvl lp a.P b.P out.P⟩
/-- `ringQP.MulCoeffsMontgomeryAndSubLvl` -/
def mulMontSubLvl (lq lp : ℕ) (a b out : QP C) : QP C :=
  ⟨RPoly.mulMontSubLvl lq a.Q b.Q out.Q, RPoly.mulMontSubLvl lp a.P b.P out.P⟩

/-- `ringQP.ExtendBasisSmallNormAndCenter(a, levelP, nil, out)`: the coefficients modulo the
first modulus, centred, are written modulo the special primes. -/
def extendBasis (levelP : ℕ) (a : RQ C) (out : RP C) : RP C :=
  out.write levelP fun i => fun j => ((a.row 0 j).valMinAbs : ZMod (C.p i))

end QP

/-- `NewSwitchingKey` (mkrlwe/keys.go 245-255). -/
def SwKey.new : SwKey C := fun _ => QP.new

/-- A Go loop `for i := 0; i < n; i++ { s = body(i, s) }`. -/
def forLt {σ : Type _} (n : ℕ) (body : ℕ → σ → σ) (s : σ) : σ :=
  match n with
  | 0 => s
  | n + 1 => body n (forLt n body s)

/-! ## Secret and public keys -/

/-- `levelQ = QCount()-1`, `levelP = PCount()-1` as used throughout keygen.go. -/
abbrev Ctx.lq (C : Ctx) : ℕ := C.nQ - 1
/-- `levelP` (see `Ctx.lq`), as used throughout keygen.go. -/
abbrev Ctx.lp (C : Ctx) : ℕ := C.nP - 1

/-- `genSecretKeyFromSampler` (mkrlwe/keygen.go 44-55); `s` is the sampled polynomial.
`GenSecretKey`, `GenSecretKeyGaussian`, `GenSecretKeyWithDistrib`, `GenSecretKeySparse`
(57-85) differ only in the distribution of `s`. -/
def GenSecretKey (s : Nega C.N ℤ) (id : String) : SecretKey C :=
  let v : QP C := QP.new
  let v := { v with Q := v.Q.readLvl C.lq s }
  let v := { v with P := QP.extendBasis C.lp v.Q v.P }
  let v := QP.nttLvl C.lq C.lp v v
  let v := QP.mformLvl C.lq C.lp v v
  ⟨id, v⟩

/-- `GenPublicKey` (mkrlwe/keygen.go 88-109). -/
def GenPublicKey (crs : CRS C) (e : Nega C.N ℤ) (sk : SecretKey C) : Go (PublicKey C) := do
  let v0 : QP C := QP.new
  let v0 := { v0 with Q := v0.Q.readLvl C.lq e }
  let v0 := { v0 with P := QP.extendBasis C.lp v0.Q v0.P }
  let v0 := QP.nttLvl C.lq C.lp v0 v0
  let a ← crs.deref 0
  let v1 : QP C := ⟨(a 0).Q.copy (QP.new : QP C).Q, (a 0).P.copy (QP.new : QP C).P⟩
  let v0 := QP.mulMontSubLvl C.lq C.lp sk.value v1 v0
  return ⟨sk.id, v0, v1⟩

/-- `GenKeyPair` (mkrlwe/keygen.go 112-115). -/
def GenKeyPair (crs : CRS C) (s e : Nega C.N ℤ) (id : String) :
    Go (SecretKey C × PublicKey C) := do
  let sk := GenSecretKey s id
  let pk ← GenPublicKey crs e sk
  return (sk, pk)

/-- `GenKeyPairSparse` (mkrlwe/keygen.go 118-121): the named result `sk` is still nil when
`sk.ID` is read. -/
def GenKeyPairSparse (crs : CRS C) (s e : Nega C.N ℤ) : Go (SecretKey C × PublicKey C) := do
  let skResult : Option (SecretKey C) := none
  let id ← match skResult with
    | some sk => Except.ok sk.id
    | none => .error .nilDeref
  let sk := GenSecretKey s id
  let pk ← GenPublicKey crs e sk
  return (sk, pk)

/-- `GenGaussianError` (mkrlwe/keygen.go 123-133): overwrites `out`. -/
def GenGaussianError (e : Nega C.N ℤ) (out : QP C) : QP C :=
  let out := { out with Q := out.Q.readLvl C.lq e }
  let out := { out with P := QP.extendBasis C.lp out.Q out.P }
  QP.nttLvl C.lq C.lp out out

/-! ## Switching keys -/

/-- The inner loop over `j` (mkrlwe/keygen.go 307-323): adds `P*skIn` on the moduli of digit
`i`; `n` iterations remain, `base = i*alpha`. -/
def gadgetLoop (levelQ base : ℕ) (pool : RQ C) : ℕ → ℕ → RQ C → RQ C
  | 0, _, p => p
  | n + 1, j, p =>
    if base + j ≥ levelQ + 1 then p
    else gadgetLoop levelQ base pool n (j + 1)
      { p with row := Function.update p.row (base + j) (p.row (base + j) + pool.row (base + j)) }

/-- What one iteration of the outer loop of `GenSwitchingKey` does to entry `i`
(mkrlwe/keygen.go 291-324).  Lines 296-298 (sample, extend, NTT) are those of
`GenGaussianError`. -/
def swkEntry (e : ℕ → Nega C.N ℤ) (pool : RQ C) (i : ℕ) (v : QP C) : QP C :=
  let v := GenGaussianError (e i) v
  let v := QP.mformLvl C.lq C.lp v v
  { v with Q := gadgetLoop C.lq (i * C.alpha) pool C.alpha 0 v.Q }

/-- `GenSwitchingKey` (mkrlwe/keygen.go 270-327).  Returns `poolQ` and the key. -/
def GenSwitchingKey (poolQ : RQ C) (e : ℕ → Nega C.N ℤ) (skIn : SecretKey C) (swk : SwKey C) :
    RQ C × SwKey C :=
  let poolQ := RPoly.mulScalarLvl C.lq skIn.value.Q (C.P : ℤ) poolQ
  (poolQ, forLt C.betaMax (fun i swk => Function.update swk i (swkEntry e poolQ i (swk i))) swk)

/-- `RelinearizationKey` (mkrlwe/keys.go 34-37): `Value[0..2] = (b, d, v)`. -/
structure RelinKey (C : Ctx) where
  id : String
  b : SwKey C
  d : SwKey C
  v : SwKey C

/-- `RotationKey` (mkrlwe/keys.go 40-44). -/
structure RotKey (C : Ctx) where
  id : String
  rotIdx : ℕ
  value : SwKey C

/-- `ConjugationKey` (mkrlwe/keys.go 47-50). -/
structure ConjKey (C : Ctx) where
  id : String
  value : SwKey C

/-- Loop body for `b = -sa + e` (mkrlwe/keygen.go 163-169); the state is the scratch `tmp` and
the vector. -/
def genBStep (a : SwKey C) (sk : SecretKey C) (e : ℕ → Nega C.N ℤ) (i : ℕ)
    (st : QP C × SwKey C) : QP C × SwKey C :=
  let (tmp, b) := st
  let bi := QP.mulMontLvl C.lq C.lp (a i) sk.value (b i)
  let bi := QP.invMformLvl C.lq C.lp bi bi
  let tmp := GenGaussianError (e i) tmp
  let bi := QP.subLvl C.lq C.lp tmp bi bi
  let bi := QP.mformLvl C.lq C.lp bi bi
  (tmp, Function.update b i bi)

/-- `GenRelinearizationKey` (mkrlwe/keygen.go 137-187).  `eb`, `ed`, `ev` are the sampled
errors.  The CRS entries are dereferenced when `a.Value[i]`/`u.Value[i]` is read, i.e. when
`beta > 0`, which always holds. -/
def GenRelinearizationKey (crs : CRS C) (poolQ : RQ C) (poolQP : QP C)
    (eb ed ev : ℕ → Nega C.N ℤ) (sk r : SecretKey C) : Go (RelinKey C) := do
  if C.nP = 0 then
    .error (.msg "modulus P is empty")
  else
    let a ← crs.deref 0
    let u ← crs.deref (-1)
    let (_, b) := forLt C.betaMax (genBStep a sk eb) (poolQP, SwKey.new)
    let (poolQ, d) := GenSwitchingKey poolQ ed sk SwKey.new
    let d := forLt C.betaMax (fun i d => Function.update d i
      (QP.mulMontSubLvl C.lq C.lp (a i) r.value (d i))) d
    let (_, v) := GenSwitchingKey poolQ ev r SwKey.new
    let v := forLt C.betaMax (fun i v =>
      let vi := QP.mulMontAddLvl C.lq C.lp (u i) sk.value (v i)
      let vi : QP C := ⟨RPoly.negLvl C.lq vi.Q vi.Q, RPoly.negLvl C.lp vi.P vi.P⟩
      Function.update v i vi) v
    return ⟨sk.id, b, d, v⟩

/-- `GaloisElementForColumnRotationBy(k)` (lattigo rlwe/params.go), for `k ≥ 0`. -/
def galCol (N k : ℕ) : ℕ := 5 ^ k % (2 * N)
/-- `InverseGaloisElement(g)` (lattigo rlwe/params.go): `g^(2N-1) mod 2N`. -/
def galInv (N g : ℕ) : ℕ := g ^ (2 * N - 1) % (2 * N)
/-- `GaloisElementForRowRotation()` (lattigo rlwe/params.go). -/
def galRow (N : ℕ) : ℕ := 2 * N - 1

/-- `for rotidx < 0 { rotidx += N/2 }` (mkrlwe/keygen.go 209-211).  For `N/2 = 0` the Go loop
would not terminate; lattigo forbids such parameters. -/
def normRot (half : ℕ) (r : ℤ) : ℤ :=
  if r < 0 ∧ 0 < half then normRot half (r + half) else r
termination_by (-r).toNat
decreasing_by omega

/-- Both halves of a key permuted: `PermuteNTTWithIndexLvl` on `Q` and on `P` into a fresh key
(mkrlwe/keygen.go 214-217, 252-255). -/
def permuteKey (g : ℕ) (v : QP C) : QP C :=
  ⟨v.Q.permuteNttLvl C.nttQ C.lq g (QP.new : QP C).Q,
   v.P.permuteNttLvl C.nttP C.lp g (QP.new : QP C).P⟩

/-- `GenRotationKey` (mkrlwe/keygen.go 190-229). -/
def GenRotationKey (crs : CRS C) (poolQ : RQ C) (e : ℕ → Nega C.N ℤ) (rotidx : ℤ)
    (sk : SecretKey C) : Go (RotKey C) := do
  if !crs.has rotidx then
    .error (.msg "Cannot GenRotationKey: CRS for given rot idx is not generated")
  else
    let rotidx := normRot (C.N / 2) rotidx
    let galEl := galCol C.N rotidx.toNat
    let galEl := galInv C.N galEl
    let skOut := permuteKey galEl sk.value
    let (_, rk) := GenSwitchingKey poolQ e sk SwKey.new
    let a ← crs.deref rotidx
    let rk := forLt C.betaMax (fun i rk => Function.update rk i
      (QP.mulMontSubLvl C.lq C.lp (a i) skOut (rk i))) rk
    return ⟨sk.id, rotidx.toNat, rk⟩

/-- The loop of `GenDefaultRotationKeys` (mkrlwe/keygen.go 233-236); `e` gives the errors of the key for
each index. -/
def genDefaultLoop (crs : CRS C) (poolQ : RQ C) (e : ℕ → ℕ → Nega C.N ℤ) (sk : SecretKey C)
    (rotidx : ℕ) (set : RotationKeySet (RotKey C)) : Go (RotationKeySet (RotKey C)) :=
  if h : rotidx < C.N / 2 ∧ 0 < rotidx then do
    let rtk ← GenRotationKey crs poolQ (e rotidx) rotidx sk
    genDefaultLoop crs poolQ e sk (rotidx * 2) (set.add RotKey.id RotKey.rotIdx rtk)
  else .ok set
termination_by C.N / 2 - rotidx

/-- `GenDefaultRotationKeys` (mkrlwe/keygen.go 232-237): the loop starts at 1. -/
def GenDefaultRotationKeys (crs : CRS C) (poolQ : RQ C) (e : ℕ → ℕ → Nega C.N ℤ)
    (sk : SecretKey C) (set : RotationKeySet (RotKey C)) : Go (RotationKeySet (RotKey C)) :=
  genDefaultLoop crs poolQ e sk 1 set

/-- `GenConjugationKey` (mkrlwe/keygen.go 240-267). -/
def GenConjugationKey (crs : CRS C) (poolQ : RQ C) (e : ℕ → Nega C.N ℤ) (sk : SecretKey C) :
    Go (ConjKey C) := do
  let skOut := permuteKey (galRow C.N) sk.value
  let (_, cjk) := GenSwitchingKey poolQ e ⟨sk.id, skOut⟩ SwKey.new
  let a ← crs.deref (-2)
  let cjk := forLt C.betaMax (fun i cjk => Function.update cjk i
    (QP.mulMontSubLvl C.lq C.lp (a i) sk.value (cjk i))) cjk
  return ⟨sk.id, cjk⟩

/-! ## Specification: what the rows of a key mean -/

/-- The ring element stored by a row in NTT and Montgomery form. -/
def Ntt.dec {N : ℕ} [NeZero N] {m : ℕ → ℕ} (D : Ntt N m) (i : ℕ) (r : Row N (m i)) :
    Nega N (ZMod (m i)) :=
  (D.equiv i).symm fun j => (montR : ZMod (m i))⁻¹ * r j

/-- The gadget constant of digit `k` modulo `q_i`: `P` on the moduli of the digit, else `0`. -/
def gad (C : Ctx) (k i : ℕ) : ℕ := if i / C.alpha = k then C.P else 0

/-- `key` is a vector of encryptions of `P·g_k·m` under `t` with randomness `a` and errors
`e`: `key_k = e_k + P g_k m - a_k t` modulo every `q_i`, and `key_k = e_k - a_k t` modulo every
`p_j`. -/
structure SwEq (key a : SwKey C) (t m : Nega C.N ℤ) (e : ℕ → Nega C.N ℤ) : Prop where
  q : ∀ k < C.betaMax, ∀ i < C.nQ, C.nttQ.dec i ((key k).Q.row i) =
    Nega.red (C.q i) (e k) + (gad C k i : Nega C.N (ZMod (C.q i))) * Nega.red (C.q i) m -
      C.nttQ.dec i ((a k).Q.row i) * Nega.red (C.q i) t
  p : ∀ k < C.betaMax, ∀ i < C.nP, C.nttP.dec i ((key k).P.row i) =
    Nega.red (C.p i) (e k) - C.nttP.dec i ((a k).P.row i) * Nega.red (C.p i) t

/-! ## Lemmas -/

namespace Ntt

variable {N : ℕ} [NeZero N] {m : ℕ → ℕ} (D : Ntt N m) (i : ℕ)

theorem symm_const_mul (c : ZMod (m i)) (r : Row N (m i)) :
    (D.equiv i).symm (fun j => c * r j) = Nega.const c * (D.equiv i).symm r := by
  obtain ⟨n, rfl⟩ := ZMod.intCast_surjective c
  have h : (Nega.const ((n : ℤ) : ZMod (m i)) : Nega N (ZMod (m i))) = (n : Nega N _) := rfl
  rw [h, ← map_intCast (D.equiv i).symm n, ← map_mul]
  congr 1

theorem dec_eq (r : Row N (m i)) :
    D.dec i r = Nega.const ((montR : ZMod (m i))⁻¹) * (D.equiv i).symm r :=
  symm_const_mul D i _ r

@[simp] theorem dec_add (a b : Row N (m i)) : D.dec i (a + b) = D.dec i a + D.dec i b := by
  simp only [dec_eq, map_add, mul_add]
@[simp] theorem dec_sub (a b : Row N (m i)) : D.dec i (a - b) = D.dec i a - D.dec i b := by
  simp only [dec_eq, map_sub, mul_sub]
@[simp] theorem dec_neg (a : Row N (m i)) : D.dec i (-a) = - D.dec i a := by
  simp only [dec_eq, map_neg, mul_neg]
@[simp] theorem dec_zero : D.dec i 0 = 0 := by
  simp only [dec_eq, map_zero, mul_zero]

theorem dec_mred (a b : Row N (m i)) :
    D.dec i (fun j => RPoly.mred (a j) (b j)) = D.dec i a * D.dec i b := by
  unfold dec
  rw [← map_mul]
  congr 1
  funext j
  simp only [RPoly.mred, Pi.mul_apply]
  ring

theorem dec_mform (h : (m i).Coprime montR) (a : Row N (m i)) :
    D.dec i (fun j => (montR : ZMod (m i)) * a j) = (D.equiv i).symm a := by
  unfold dec
  congr 1
  funext j
  exact RPoly.invMont_mont h _

theorem dec_mform_ntt (h : (m i).Coprime montR) (a : Nega N (ZMod (m i))) :
    D.dec i (fun j => (montR : ZMod (m i)) * D.equiv i a j) = a := by
  rw [dec_mform _ _ h, RingEquiv.symm_apply_apply]

/-- `dec` inverts the encoding. -/
theorem row_eq_of_dec (h : (m i).Coprime montR) {r : Row N (m i)} {x : Nega N (ZMod (m i))}
    (hx : D.dec i r = x) (j : Fin N) : r j = (montR : ZMod (m i)) * D.equiv i x j := by
  subst hx
  unfold dec
  rw [RingEquiv.apply_symm_apply]
  have h2 : (montR : ZMod (m i)) * (montR : ZMod (m i))⁻¹ = 1 :=
    ZMod.coe_mul_inv_eq_one montR h.symm
  rw [← mul_assoc, h2, one_mul]

theorem dec_mulScalar (a : Row N (m i)) (c : ℤ) :
    D.dec i (fun j => a j * (c : ZMod (m i))) = (c : Nega N (ZMod (m i))) * D.dec i a := by
  have : (fun j => a j * (c : ZMod (m i))) = fun j => (c : ZMod (m i)) * a j :=
    funext fun j => mul_comm _ _
  rw [this, dec_eq, symm_const_mul, dec_eq, ← mul_assoc, ← mul_assoc,
    mul_comm (Nega.const _) (Nega.const _)]
  rfl

theorem const_mul_auto (g : ℕ) (c : ZMod (m i)) (x : Nega N (ZMod (m i))) (hg : Odd g) :
    Nega.auto g (Nega.const c * x) = Nega.const c * Nega.auto g x := by
  obtain ⟨n, rfl⟩ := ZMod.intCast_surjective c
  have h : (Nega.const ((n : ℤ) : ZMod (m i)) : Nega N (ZMod (m i))) = (n : Nega N _) := rfl
  rw [h, ← Nega.autoHom_apply g hg, map_mul, map_intCast, Nega.autoHom_apply]

theorem dec_permute (g : ℕ) (hg : Odd g) (a : Row N (m i)) :
    D.dec i (D.equiv i (Nega.auto g ((D.equiv i).symm a))) = Nega.auto g (D.dec i a) := by
  rw [dec_eq, dec_eq, RingEquiv.symm_apply_apply, const_mul_auto _ _ _ _ hg]

end Ntt

theorem Ctx.Good.lq_lt (hC : C.Good) {i : ℕ} : i ≤ C.lq ↔ i < C.nQ := by
  have := hC.nQ_pos
  show i ≤ C.nQ - 1 ↔ _
  omega

theorem Ctx.Good.nP_pos (hC : C.Good) : 0 < C.nP := by
  have h : 0 < C.nP / C.gamma := hC.alpha_pos
  by_contra h0
  have h0 : C.nP = 0 := by omega
  rw [h0, Nat.zero_div] at h
  exact lt_irrefl _ h

theorem Ctx.Good.alpha_pos' (hC : C.Good) : 0 < C.alpha := hC.alpha_pos

theorem Ctx.Good.lp_lt (hC : C.Good) {i : ℕ} : i ≤ C.lp ↔ i < C.nP := by
  have := hC.nP_pos
  show i ≤ C.nP - 1 ↔ _
  omega

/-- A polynomial is *small* for the centring step: `2|e_j| < q_0`. -/
def Small (C : Ctx) (e : Nega C.N ℤ) : Prop := ∀ j, 2 * |e.coeff j| < C.q 0

theorem extendBasis_small (hC : C.Good) {e : Nega C.N ℤ} (he : Small C e) {a : RQ C}
    (ha : a.row 0 = (Nega.red (C.q 0) e).coeff) {lp i : ℕ} (hi : i ≤ lp) (out : RP C) :
    (QP.extendBasis lp a out).row i = (Nega.red (C.p i) e).coeff := by
  have : NeZero (C.q 0) := ⟨(hC.posQ 0).ne'⟩
  unfold QP.extendBasis
  rw [RPoly.write_row_of_le _ _ hi]
  funext j
  rw [ha]
  have : ((Nega.red (C.q 0) e).coeff j).valMinAbs = e.coeff j := by
    rw [ZMod.valMinAbs_spec]
    refine ⟨rfl, ?_⟩
    have := he j
    rw [Set.mem_Ioc]
    have h1 := neg_abs_le (e.coeff j)
    have h2 := le_abs_self (e.coeff j)
    constructor <;> linarith
  rw [this]
  rfl

/-- The rows of a sampled error after extension and NTT, for any prior content. -/
theorem genGaussianError_rows (hC : C.Good) {e : Nega C.N ℤ} (he : Small C e) (v : QP C) :
    (∀ i < C.nQ, (GenGaussianError e v).Q.row i = C.nttQ.equiv i (Nega.red (C.q i) e)) ∧
    (∀ i < C.nP, (GenGaussianError e v).P.row i = C.nttP.equiv i (Nega.red (C.p i) e)) := by
  have h0 : (v.Q.readLvl C.lq e).row 0 = (Nega.red (C.q 0) e).coeff :=
    RPoly.write_row_of_le _ _ (Nat.zero_le _)
  refine ⟨fun i hi => ?_, fun i hi => ?_⟩
  · have hi' := hC.lq_lt.mpr hi
    simp only [GenGaussianError, QP.nttLvl, RPoly.nttLvl, RPoly.readLvl,
      RPoly.write_row_of_le _ _ hi']
  · have hi' := hC.lp_lt.mpr hi
    simp only [GenGaussianError, QP.nttLvl, RPoly.nttLvl, RPoly.write_row_of_le _ _ hi']
    rw [extendBasis_small hC he h0 hi']

theorem genSecretKey_isSK (hC : C.Good) {s : Nega C.N ℤ} (hs : Small C s) (id : String) :
    IsSK (GenSecretKey s id) s := by
  obtain ⟨hq, hp⟩ := genGaussianError_rows hC hs (QP.new : QP C)
  have h : GenSecretKey s id = ⟨id, QP.mformLvl C.lq C.lp (GenGaussianError s QP.new)
    (GenGaussianError s QP.new)⟩ := rfl
  rw [h]
  constructor
  · intro i hi j
    simp only [QP.mformLvl, RPoly.mformLvl, RPoly.write_row_of_le _ _ (hC.lq_lt.mpr hi), hq i hi]
  · intro i hi j
    simp only [QP.mformLvl, RPoly.mformLvl, RPoly.write_row_of_le _ _ (hC.lp_lt.mpr hi), hp i hi]

theorem IsSK.decQ (hC : C.Good) {sk : SecretKey C} {s : Nega C.N ℤ} (h : IsSK sk s) {i : ℕ}
    (hi : i < C.nQ) : C.nttQ.dec i (sk.value.Q.row i) = Nega.red (C.q i) s := by
  rw [show sk.value.Q.row i = fun j => (montR : ZMod (C.q i)) * C.nttQ.equiv i
    (Nega.red (C.q i) s) j from funext (h.q i hi), Ntt.dec_mform_ntt _ _ (hC.oddQ i)]

theorem IsSK.decP (hC : C.Good) {sk : SecretKey C} {s : Nega C.N ℤ} (h : IsSK sk s) {i : ℕ}
    (hi : i < C.nP) : C.nttP.dec i (sk.value.P.row i) = Nega.red (C.p i) s := by
  rw [show sk.value.P.row i = fun j => (montR : ZMod (C.p i)) * C.nttP.equiv i
    (Nega.red (C.p i) s) j from funext (h.p i hi), Ntt.dec_mform_ntt _ _ (hC.oddP i)]

theorem forLt_update {α : Type _} (n : ℕ) (f : ℕ → α → α) (v : ℕ → α) (k : ℕ) :
    forLt n (fun i v => Function.update v i (f i (v i))) v k =
      if k < n then f k (v k) else v k := by
  induction n with
  | zero => rfl
  | succ n ih =>
    simp only [forLt]
    by_cases h : k = n
    · subst h
      rw [Function.update_self, ih, if_neg (lt_irrefl _), if_pos (Nat.lt_succ_self _)]
    · rw [Function.update_of_ne h, ih]
      by_cases h2 : k < n
      · rw [if_pos h2, if_pos (by omega)]
      · rw [if_neg h2, if_neg (by omega)]

theorem gadgetLoop_row (levelQ base : ℕ) (pool : RQ C) (n j : ℕ) (p : RQ C) (t : ℕ) :
    (gadgetLoop levelQ base pool n j p).row t =
      if base + j ≤ t ∧ t < base + j + n ∧ t ≤ levelQ then p.row t + pool.row t
      else p.row t := by
  induction n generalizing j p with
  | zero => simp only [gadgetLoop]; rw [if_neg (by omega)]
  | succ n ih =>
    unfold gadgetLoop
    split
    · rw [if_neg (by omega)]
    · rw [ih]
      by_cases h : t = base + j
      · subst h
        rw [if_neg (by omega), if_pos (by omega)]
        simp
      · simp only [Function.update_of_ne h]
        by_cases h2 : base + (j + 1) ≤ t ∧ t < base + (j + 1) + n ∧ t ≤ levelQ
        · rw [if_pos h2, if_pos (by omega)]
        · rw [if_neg h2, if_neg (by omega)]

/-- `GenSwitchingKey` in closed form: `e_k + P g_k m` for any prior content of the pool and of
the key. -/
theorem genSwitchingKey_spec (hC : C.Good) (poolQ : RQ C) {e : ℕ → Nega C.N ℤ}
    (he : ∀ k, Small C (e k)) {skIn : SecretKey C} {m : Nega C.N ℤ}
    (hm : ∀ i < C.nQ, C.nttQ.dec i (skIn.value.Q.row i) = Nega.red (C.q i) m)
    (swk : SwKey C) :
    (∀ k < C.betaMax, ∀ i < C.nQ,
      C.nttQ.dec i (((GenSwitchingKey poolQ e skIn swk).2 k).Q.row i) =
        Nega.red (C.q i) (e k) +
          (gad C k i : Nega C.N (ZMod (C.q i))) * Nega.red (C.q i) m) ∧
    (∀ k < C.betaMax, ∀ i < C.nP,
      C.nttP.dec i (((GenSwitchingKey poolQ e skIn swk).2 k).P.row i) =
        Nega.red (C.p i) (e k)) := by
  have ha := hC.alpha_pos'
  refine ⟨fun k hk i hi => ?_, fun k hk i hi => ?_⟩
  · have hi' := hC.lq_lt.mpr hi
    unfold GenSwitchingKey
    dsimp only
    rw [forLt_update, if_pos hk]
    unfold swkEntry
    dsimp only
    rw [gadgetLoop_row]
    have hm1 : C.nttQ.dec i ((QP.mformLvl C.lq C.lp (GenGaussianError (e k) (swk k))
        (GenGaussianError (e k) (swk k))).Q.row i) = Nega.red (C.q i) (e k) := by
      simp only [QP.mformLvl, RPoly.mformLvl]
      rw [RPoly.write_row_of_le _ _ hi', Ntt.dec_mform _ _ (hC.oddQ i),
        (genGaussianError_rows hC (he k) (swk k)).1 i hi, RingEquiv.symm_apply_apply]
    have hcond : (k * C.alpha + 0 ≤ i ∧ i < k * C.alpha + 0 + C.alpha ∧ i ≤ C.lq) ↔
        i / C.alpha = k := by
      rw [Nat.div_eq_iff ha]
      constructor
      · rintro ⟨h1, h2, h3⟩; constructor <;> omega
      · rintro ⟨h1, h2⟩; refine ⟨?_, ?_, hi'⟩ <;> omega
    unfold gad
    by_cases hd : i / C.alpha = k
    · rw [if_pos (hcond.mpr hd), if_pos hd, Ntt.dec_add, hm1]
      congr 1
      unfold RPoly.mulScalarLvl
      rw [RPoly.write_row_of_le _ _ hi', Ntt.dec_mulScalar, hm i hi]
      push_cast
      rfl
    · rw [if_neg (fun h => hd (hcond.mp h)), if_neg hd, hm1]
      simp only [Nat.cast_zero, zero_mul, add_zero]
  · have hi' := hC.lp_lt.mpr hi
    unfold GenSwitchingKey
    dsimp only
    rw [forLt_update, if_pos hk]
    simp only [swkEntry, QP.mformLvl, RPoly.mformLvl]
    rw [RPoly.write_row_of_le _ _ hi', Ntt.dec_mform _ _ (hC.oddP i),
      (genGaussianError_rows hC (he k) (swk k)).2 i hi, RingEquiv.symm_apply_apply]

end MK
