import Verif.Go
import Verif.Auto
import Mathlib.Algebra.Ring.Pi
import Mathlib.Data.ZMod.Units

/-!
# RNS polynomials and the lattigo ring operations the code calls

`ring.Poly` is a list of rows of residues (`Coeffs[i][j]` modulo the `i`-th modulus) with an
`IsNTT` flag.  All `...Lvl(level, ...)` operations write rows `0..level` of the output and
leave the rows above untouched.  The functions in this file are *contracts* for lattigo
v2.3.0 (`ring/operations.go`, `ring/poly.go`, `ring/ntt.go`, `ring/automorphism.go`), which
is not part of `/repo`.  Residues are modelled modulo the prime; lazily reduced
representatives (`NTTLazy`, `InvNTTLazy`) are therefore identified with reduced ones.
-/

noncomputable section

namespace MK

/-- One row of residues. -/
abbrev Row (N m : ℕ) := Fin N → ZMod m

/-- `ring.Poly`: rows of residues, number of rows, NTT flag.  Rows with index `≥ len` do not
exist in the Go value; their model content is irrelevant. -/
structure RPoly (N : ℕ) (m : ℕ → ℕ) where
  len : ℕ
  row : (i : ℕ) → Row N (m i)
  isNTT : Bool

/-- The number-theoretic transforms of a ring: for each modulus, an isomorphism from the
negacyclic ring to the pointwise ring. -/
structure Ntt (N : ℕ) [NeZero N] (m : ℕ → ℕ) where
  equiv : (i : ℕ) → Nega N (ZMod (m i)) ≃+* Row N (m i)

/-- The Montgomery radix `2^64`. -/
def montR : ℕ := 2 ^ 64

namespace RPoly

variable {N : ℕ} {m : ℕ → ℕ}

/-- `poly.Level()` -/
def level (p : RPoly N m) : ℕ := p.len - 1

/-- `ring.NewPoly(N, len)` -/
def new (len : ℕ) : RPoly N m := ⟨len, fun _ => 0, false⟩

/-- Overwrite rows `0..level`. -/
def write (level : ℕ) (f : (i : ℕ) → Row N (m i)) (out : RPoly N m) : RPoly N m :=
  { out with row := fun i => if i ≤ level then f i else out.row i }

/-- `poly.Zero()`: clears every row. -/
def zero (p : RPoly N m) : RPoly N m := { p with row := fun _ => 0 }

/-- `p.Coeffs = p.Coeffs[:len]` -/
def truncate (len : ℕ) (p : RPoly N m) : RPoly N m := { p with len := len }

/-- `out.Copy(p)`: copies the rows both have and the NTT flag. -/
def copy (p out : RPoly N m) : RPoly N m :=
  { len := out.len
    row := fun i => if i < min out.len p.len then p.row i else out.row i
    isNTT := p.isNTT }

/-- `ring.CopyLvl(level, p, out)` / `CopyValuesLvl`: copies rows only. -/
def copyLvl (level : ℕ) (p out : RPoly N m) : RPoly N m := out.write level p.row

/-- `ring.AddLvl` -/
def addLvl (level : ℕ) (a b out : RPoly N m) : RPoly N m :=
  out.write level fun i => a.row i + b.row i

/-- `ring.SubLvl` -/
def subLvl (level : ℕ) (a b out : RPoly N m) : RPoly N m :=
  out.write level fun i => a.row i - b.row i

/-- `ring.NegLvl` -/
def negLvl (level : ℕ) (a out : RPoly N m) : RPoly N m :=
  out.write level fun i => - a.row i

/-- `ring.MFormLvl`: to Montgomery form. -/
def mformLvl (level : ℕ) (a out : RPoly N m) : RPoly N m :=
  out.write level fun i => fun j => (montR : ZMod (m i)) * a.row i j

/-- `ring.InvMFormLvl`: out of Montgomery form. -/
def invMformLvl (level : ℕ) (a out : RPoly N m) : RPoly N m :=
  out.write level fun i => fun j => (montR : ZMod (m i))⁻¹ * a.row i j

/-- The Montgomery product of two residues. -/
def mred {q : ℕ} (x y : ZMod q) : ZMod q := x * y * (montR : ZMod q)⁻¹

/-- `ring.MulCoeffsMontgomeryLvl`: pointwise Montgomery product. -/
def mulMontLvl (level : ℕ) (a b out : RPoly N m) : RPoly N m :=
  out.write level fun i => fun j => mred (a.row i j) (b.row i j)

/-- `ring.MulCoeffsMontgomeryAndAddLvl` -/
def mulMontAddLvl (level : ℕ) (a b out : RPoly N m) : RPoly N m :=
  out.write level fun i => fun j => out.row i j + mred (a.row i j) (b.row i j)

/-- `ring.MulCoeffsMontgomeryAndSubLvl` -/
def mulMontSubLvl (level : ℕ) (a b out : RPoly N m) : RPoly N m :=
  out.write level fun i => fun j => out.row i j - mred (a.row i j) (b.row i j)

/-- `ring.MulScalarBigintLvl` -/
def mulScalarLvl (level : ℕ) (a : RPoly N m) (c : ℤ) (out : RPoly N m) : RPoly N m :=
  out.write level fun i => fun j => a.row i j * (c : ZMod (m i))

section Transform

variable [NeZero N] (D : Ntt N m)

/-- `ring.NTTLvl` (does not touch the flag). -/
def nttLvl (level : ℕ) (a out : RPoly N m) : RPoly N m :=
  out.write level fun i => D.equiv i ⟨a.row i⟩

/-- `ring.InvNTTLvl` (does not touch the flag). -/
def invNttLvl (level : ℕ) (a out : RPoly N m) : RPoly N m :=
  out.write level fun i => ((D.equiv i).symm (a.row i)).coeff

/-- Sampler output: `sampler.ReadLvl(level, out)` writes a small integer polynomial modulo
every modulus (`ring.GaussianSampler`, `ring.TernarySampler`). -/
def readLvl (level : ℕ) (e : Nega N ℤ) (out : RPoly N m) : RPoly N m :=
  out.write level fun i => (Nega.red (m i) e).coeff

/-- `sampler.ReadAndAddLvl(level, out)` -/
def readAndAddLvl (level : ℕ) (e : Nega N ℤ) (out : RPoly N m) : RPoly N m :=
  out.write level fun i => out.row i + (Nega.red (m i) e).coeff

/-- `ring.PermuteNTTWithIndexLvl(level, a, PermuteNTTIndex(g, N), out)`: the automorphism
`X ↦ X^g` in the NTT domain. -/
def permuteNttLvl (level : ℕ) (g : ℕ) (a out : RPoly N m) : RPoly N m :=
  out.write level fun i => D.equiv i (Nega.auto g ((D.equiv i).symm (a.row i)))

/-- The ring element stored in row `i`, according to the NTT flag. -/
def val (p : RPoly N m) (i : ℕ) : Nega N (ZMod (m i)) :=
  if p.isNTT then (D.equiv i).symm (p.row i) else ⟨p.row i⟩

end Transform

@[simp] theorem write_len (l : ℕ) (f : (i : ℕ) → Row N (m i)) (o : RPoly N m) :
    (o.write l f).len = o.len := rfl
@[simp] theorem write_isNTT (l : ℕ) (f : (i : ℕ) → Row N (m i)) (o : RPoly N m) :
    (o.write l f).isNTT = o.isNTT := rfl
theorem write_row_of_le {l : ℕ} (f : (i : ℕ) → Row N (m i)) (o : RPoly N m) {i : ℕ}
    (h : i ≤ l) : (o.write l f).row i = f i := by simp [write, h]
theorem write_row_of_gt {l : ℕ} (f : (i : ℕ) → Row N (m i)) (o : RPoly N m) {i : ℕ}
    (h : ¬ i ≤ l) : (o.write l f).row i = o.row i := by simp [write, h]

theorem mred_mont {q : ℕ} (hq : q.Coprime montR) (x y : ZMod q) :
    mred ((montR : ZMod q) * x) y = x * y := by
  unfold mred
  have h : (montR : ZMod q) * (montR : ZMod q)⁻¹ = 1 :=
    ZMod.coe_mul_inv_eq_one montR hq.symm
  calc (montR : ZMod q) * x * y * (montR : ZMod q)⁻¹
      = x * y * ((montR : ZMod q) * (montR : ZMod q)⁻¹) := by ring
    _ = x * y := by rw [h, mul_one]

theorem mred_mont' {q : ℕ} (hq : q.Coprime montR) (x y : ZMod q) :
    mred x ((montR : ZMod q) * y) = x * y := by
  unfold mred
  have h : (montR : ZMod q) * (montR : ZMod q)⁻¹ = 1 :=
    ZMod.coe_mul_inv_eq_one montR hq.symm
  calc x * ((montR : ZMod q) * y) * (montR : ZMod q)⁻¹
      = x * y * ((montR : ZMod q) * (montR : ZMod q)⁻¹) := by ring
    _ = x * y := by rw [h, mul_one]

theorem invMont_mont {q : ℕ} (hq : q.Coprime montR) (x : ZMod q) :
    (montR : ZMod q)⁻¹ * ((montR : ZMod q) * x) = x := by
  have h : (montR : ZMod q) * (montR : ZMod q)⁻¹ = 1 :=
    ZMod.coe_mul_inv_eq_one montR hq.symm
  calc (montR : ZMod q)⁻¹ * ((montR : ZMod q) * x)
      = ((montR : ZMod q) * (montR : ZMod q)⁻¹) * x := by ring
    _ = x := by rw [h, one_mul]

end RPoly

/-- The parameters: ring degree, moduli chains, `gamma`, the transforms, and the
floating-point quotient used in basis extension (`fv` maps the list of pairs `(y_i, q_i)` to
`uint64(Σ float64(y_i)/float64(q_i))`).  Models `mkrlwe.Parameters` (mkrlwe/params.go 8-12)
together with the lattigo rings; the CRS is a separate value. -/
structure Ctx where
  N : ℕ
  [neN : NeZero N]
  /-- `ringQ.Modulus` -/
  q : ℕ → ℕ
  /-- `ringP.Modulus` -/
  p : ℕ → ℕ
  /-- `QCount()` -/
  nQ : ℕ
  /-- `PCount()` -/
  nP : ℕ
  gamma : ℕ
  nttQ : Ntt N q
  nttP : Ntt N p
  fv : List (ℕ × ℕ) → ℕ

attribute [instance] Ctx.neN

/-- Validity of the moduli: odd and pairwise coprime (lattigo checks that they are distinct
NTT-friendly primes).  Indices beyond the chains are unconstrained except for oddness (a
chain can always be continued by `1`). -/
structure Ctx.Good (C : Ctx) : Prop where
  oddQ : ∀ i, (C.q i).Coprime montR
  oddP : ∀ i, (C.p i).Coprime montR
  posQ : ∀ i, 0 < C.q i
  posP : ∀ i, 0 < C.p i
  copQ : ∀ i j, i < C.nQ → j < C.nQ → i ≠ j → (C.q i).Coprime (C.q j)
  copP : ∀ i j, i < C.nP → j < C.nP → i ≠ j → (C.p i).Coprime (C.p j)
  copQP : ∀ i j, i < C.nQ → j < C.nP → (C.q i).Coprime (C.p j)
  nQ_pos : 0 < C.nQ
  alpha_pos : 0 < C.nP / C.gamma

/-- Polynomials modulo `Q`. -/
abbrev RQ (C : Ctx) := RPoly C.N C.q
/-- Polynomials modulo `P`. -/
abbrev RP (C : Ctx) := RPoly C.N C.p

/-- `rlwe.PolyQP` -/
structure QP (C : Ctx) where
  Q : RQ C
  P : RP C

/-- `mkrlwe.SwitchingKey` (mkrlwe/keys.go 23-25): a vector of `beta` QP-polynomials.  The
vector is modelled as a function; only indices below `Beta(QCount-1)` exist. -/
abbrev SwKey (C : Ctx) := ℕ → QP C

end MK
