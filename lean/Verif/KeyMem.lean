import Verif.KeyGen

/-!
# mkrlwe/params.go, mkrlwe/keys.go and mkrlwe/keygen.go on memory

`KeyGen.lean` computes keys as values.  Here every `rlwe.PolyQP` is a cell of a memory: the
key generator's pools, the CRS vectors, the secret keys passed in and the keys being written
are addresses, every statement reads its operands from the memory at the moment it is executed
and writes its output in place.  Functions that cannot panic are state transformers
`PMem C → PMem C`; the others return `Go (_ × PMem C)`.
-/

noncomputable section

namespace MK

/-- The address of one `rlwe.PolyQP`: cell `k` of the allocated object `o` (a `SwitchingKey`
has one cell per digit; a single polynomial is cell 0 of its own object). -/
structure Ptr where
  o : ℕ
  k : ℕ
  deriving DecidableEq

/-- The memory: contents of all cells, and the first object number not yet allocated. -/
structure PMem (C : Ctx) where
  val : Ptr → QP C
  next : ℕ

variable {C : Ctx}

namespace PMem

/-- The contents of an object. -/
def obj (m : PMem C) (o : ℕ) : SwKey C := fun k => m.val ⟨o, k⟩

/-- `ringQP.NewPoly()` for every cell of a new object (mkrlwe/keys.go 229-284): the object
`m.next` is allocated and its cells are zero. -/
def fresh (m : PMem C) : PMem C :=
  ⟨fun p => if p.o = m.next then QP.new else m.val p, m.next + 1⟩

/-- A statement changing the cell `out` in place. -/
def wr (m : PMem C) (out : Ptr) (f : QP C → QP C) : PMem C :=
  { m with val := Function.update m.val out (f (m.val out)) }

/-- A ring operation `op(a, out)`: reads the cell `a`, writes the cell `out` (which may be
`a`). -/
def op1 (m : PMem C) (f : QP C → QP C → QP C) (a out : Ptr) : PMem C :=
  m.wr out (f (m.val a))

/-- A ring operation `op(a, b, out)`. -/
def op2 (m : PMem C) (f : QP C → QP C → QP C → QP C) (a b out : Ptr) : PMem C :=
  m.wr out (f (m.val a) (m.val b))

end PMem

/-- `*SecretKey` (mkrlwe/keys.go 6-9): the identifier and the address of the polynomial. -/
structure SkA where
  id : String
  value : Ptr

/-- `*PublicKey` (mkrlwe/keys.go 17-20). -/
structure PkA where
  id : String
  value0 : Ptr
  value1 : Ptr

/-- `*RelinearizationKey` (mkrlwe/keys.go 34-37): three `*SwitchingKey`. -/
structure RlkA where
  id : String
  b : ℕ
  d : ℕ
  v : ℕ

/-- `*RotationKey` (mkrlwe/keys.go 40-44). -/
structure RotA where
  id : String
  rotIdx : ℕ
  value : ℕ

/-- `*ConjugationKey` (mkrlwe/keys.go 47-50). -/
structure CjA where
  id : String
  value : ℕ

/-- `KeyGenerator` (mkrlwe/keygen.go 13-20): the two pools and the CRS map of the parameters.
`poolQ` is a polynomial modulo `Q` only: the `Q` half of its cell. -/
structure KG where
  poolQ : Ptr
  poolQP : Ptr
  crs : GoMap ℤ ℕ

/-! ## Parameters -/

/-- Lines 52-57 of `NewParameters` and 93-98 of `AddCRS` (mkrlwe/params.go): the cells of the
new vector are sampled (`u i`: the two uniform polynomials) and put into Montgomery form in
place. -/
def crsFillM (u : ℕ → QP C) (o : ℕ) (m : PMem C) : PMem C :=
  forLt C.betaMax (fun i m =>
    let m := m.wr ⟨o, i⟩ fun x => { x with Q := x.Q.write C.lq (u i).Q.row }
    let m := m.wr ⟨o, i⟩ fun x => { x with P := x.P.write C.lp (u i).P.row }
    m.op1 (QP.mformLvl C.lq C.lp) ⟨o, i⟩ ⟨o, i⟩) m

/-- `AddCRS` (mkrlwe/params.go 77-99) and one iteration of the loop of `NewParameters` (50-57):
a new object, which the map entry points to from now on. -/
def addCRSM (crs : GoMap ℤ ℕ) (idx : ℤ) (u : ℕ → QP C) (m : PMem C) : GoMap ℤ ℕ × PMem C :=
  (crs.set idx m.next, crsFillM u m.next m.fresh)

/-- The loop of `NewParameters` (mkrlwe/params.go 49-58). -/
def crsLoopM (u : ℤ → ℕ → QP C) : List ℤ → GoMap ℤ ℕ × PMem C → GoMap ℤ ℕ × PMem C
  | [], s => s
  | idx :: l, s => crsLoopM u l (addCRSM s.1 idx (u idx) s.2)

/-- The CRS part of `NewParameters` (mkrlwe/params.go 16-61). -/
def newCRSM (logN : ℕ) (u : ℤ → ℕ → QP C) (m : PMem C) : GoMap ℤ ℕ × PMem C :=
  crsLoopM u (crsIdxs logN) (GoMap.empty, m)

/-- `NewKeyGenerator` (mkrlwe/keygen.go 24-40): two new polynomials; the parameters are copied,
which copies the reference to the CRS map. -/
def newKeyGenM (crs : GoMap ℤ ℕ) (m : PMem C) : KG × PMem C :=
  (⟨⟨m.next, 0⟩, ⟨m.fresh.next, 0⟩, crs⟩, m.fresh.fresh)

/-! ## Secret and public keys -/

/-- `genSecretKeyFromSampler` (mkrlwe/keygen.go 44-55); `s` is the sampled polynomial. -/
def GenSecretKeyM (s : Nega C.N ℤ) (id : String) (m : PMem C) : SkA × PMem C :=
  let v : Ptr := ⟨m.next, 0⟩
  let m := m.fresh
  let m := m.wr v fun x => { x with Q := x.Q.readLvl C.lq s }
  let m := m.wr v fun x => { x with P := QP.extendBasis C.lp x.Q x.P }
  let m := m.op1 (QP.nttLvl C.lq C.lp) v v
  let m := m.op1 (QP.mformLvl C.lq C.lp) v v
  (⟨id, v⟩, m)

/-- `GenPublicKey` (mkrlwe/keygen.go 88-109). -/
def GenPublicKeyM (kg : KG) (e : Nega C.N ℤ) (sk : SkA) (m : PMem C) : Go (PkA × PMem C) := do
  let v0 : Ptr := ⟨m.next, 0⟩
  let m := m.fresh
  let v1 : Ptr := ⟨m.next, 0⟩
  let m := m.fresh
  let m := m.wr v0 fun x => { x with Q := x.Q.readLvl C.lq e }
  let m := m.wr v0 fun x => { x with P := QP.extendBasis C.lp x.Q x.P }
  let m := m.op1 (QP.nttLvl C.lq C.lp) v0 v0
  let a ← kg.crs.deref 0
  let m := m.op1 (fun a x => { x with Q := a.Q.copy x.Q }) ⟨a, 0⟩ v1
  let m := m.op1 (fun a x => { x with P := a.P.copy x.P }) ⟨a, 0⟩ v1
  let m := m.op2 (QP.mulMontSubLvl C.lq C.lp) sk.value v1 v0
  return (⟨sk.id, v0, v1⟩, m)

/-- `GenKeyPair` (mkrlwe/keygen.go 112-115). -/
def GenKeyPairM (kg : KG) (s e : Nega C.N ℤ) (id : String) (m : PMem C) :
    Go ((SkA × PkA) × PMem C) := do
  let (sk, m) := GenSecretKeyM s id m
  let (pk, m) ← GenPublicKeyM kg e sk m
  return ((sk, pk), m)

/-- `GenGaussianError` (mkrlwe/keygen.go 123-133). -/
def GenGaussianErrorM (e : Nega C.N ℤ) (out : Ptr) (m : PMem C) : PMem C :=
  let m := m.wr out fun x => { x with Q := x.Q.readLvl C.lq e }
  let m := m.wr out fun x => { x with P := QP.extendBasis C.lp x.Q x.P }
  m.op1 (QP.nttLvl C.lq C.lp) out out

/-! ## Switching keys -/

/-- The inner loop over `j` (mkrlwe/keygen.go 307-323): row `base + j` of the pool is read and
added to the row of the key. -/
def gadgetLoopM (levelQ base : ℕ) (pool out : Ptr) : ℕ → ℕ → PMem C → PMem C
  | 0, _, m => m
  | n + 1, j, m =>
    if base + j ≥ levelQ + 1 then m
    else gadgetLoopM levelQ base pool out n (j + 1)
      (m.op1 (fun a x => { x with Q := { x.Q with
        row := Function.update x.Q.row (base + j) (x.Q.row (base + j) + a.Q.row (base + j)) } })
        pool out)

/-- `GenSwitchingKey` (mkrlwe/keygen.go 270-327), writing the object `swk`. -/
def GenSwitchingKeyM (kg : KG) (e : ℕ → Nega C.N ℤ) (skIn : SkA) (swk : ℕ) (m : PMem C) :
    PMem C :=
  let m := m.op1 (fun a x => { x with Q := RPoly.mulScalarLvl C.lq a.Q (C.P : ℤ) x.Q })
    skIn.value kg.poolQ
  forLt C.betaMax (fun i m =>
    let out : Ptr := ⟨swk, i⟩
    let m := m.wr out fun x => { x with Q := x.Q.readLvl C.lq (e i) }
    let m := m.wr out fun x => { x with P := QP.extendBasis C.lp x.Q x.P }
    let m := m.op1 (QP.nttLvl C.lq C.lp) out out
    let m := m.op1 (QP.mformLvl C.lq C.lp) out out
    gadgetLoopM C.lq (i * C.alpha) kg.poolQ out C.alpha 0 m) m

/-- `GenRelinearizationKey` (mkrlwe/keygen.go 137-187). -/
def GenRelinearizationKeyM (kg : KG) (eb ed ev : ℕ → Nega C.N ℤ) (sk r : SkA) (m : PMem C) :
    Go (RlkA × PMem C) := do
  if C.nP = 0 then
    .error (.msg "modulus P is empty")
  else
    let b := m.next
    let m := m.fresh
    let d := m.next
    let m := m.fresh
    let v := m.next
    let m := m.fresh
    let a ← kg.crs.deref 0
    let u ← kg.crs.deref (-1)
    let tmp := kg.poolQP
    let m := forLt C.betaMax (fun i m =>
      let m := m.op2 (QP.mulMontLvl C.lq C.lp) ⟨a, i⟩ sk.value ⟨b, i⟩
      let m := m.op1 (QP.invMformLvl C.lq C.lp) ⟨b, i⟩ ⟨b, i⟩
      let m := GenGaussianErrorM (eb i) tmp m
      let m := m.op2 (QP.subLvl C.lq C.lp) tmp ⟨b, i⟩ ⟨b, i⟩
      m.op1 (QP.mformLvl C.lq C.lp) ⟨b, i⟩ ⟨b, i⟩) m
    let m := GenSwitchingKeyM kg ed sk d m
    let m := forLt C.betaMax (fun i m =>
      m.op2 (QP.mulMontSubLvl C.lq C.lp) ⟨a, i⟩ r.value ⟨d, i⟩) m
    let m := GenSwitchingKeyM kg ev r v m
    let m := forLt C.betaMax (fun i m =>
      let m := m.op2 (QP.mulMontAddLvl C.lq C.lp) ⟨u, i⟩ sk.value ⟨v, i⟩
      let m := m.op1 (fun a x => { x with Q := RPoly.negLvl C.lq a.Q x.Q }) ⟨v, i⟩ ⟨v, i⟩
      m.op1 (fun a x => { x with P := RPoly.negLvl C.lp a.P x.P }) ⟨v, i⟩ ⟨v, i⟩) m
    return (⟨sk.id, b, d, v⟩, m)

/-- The two calls of `PermuteNTTWithIndexLvl` from `skIn` to `skOut`
(mkrlwe/keygen.go 214-217, 252-255). -/
def permuteM (g : ℕ) (a out : Ptr) (m : PMem C) : PMem C :=
  let m := m.op1 (fun a x => { x with Q := a.Q.permuteNttLvl C.nttQ C.lq g x.Q }) a out
  m.op1 (fun a x => { x with P := a.P.permuteNttLvl C.nttP C.lp g x.P }) a out

/-- `GenRotationKey` (mkrlwe/keygen.go 190-229). -/
def GenRotationKeyM (kg : KG) (e : ℕ → Nega C.N ℤ) (rotidx : ℤ) (sk : SkA) (m : PMem C) :
    Go (RotA × PMem C) := do
  let skOut : SkA := ⟨sk.id, ⟨m.next, 0⟩⟩
  let m := m.fresh
  if !kg.crs.has rotidx then
    .error (.msg "Cannot GenRotationKey: CRS for given rot idx is not generated")
  else
    let rotidx := normRot (C.N / 2) rotidx
    let galEl := galCol C.N rotidx.toNat
    let galEl := galInv C.N galEl
    let m := permuteM galEl sk.value skOut.value m
    let rk := m.next
    let m := m.fresh
    let m := GenSwitchingKeyM kg e sk rk m
    let a ← kg.crs.deref rotidx
    let m := forLt C.betaMax (fun i m =>
      m.op2 (QP.mulMontSubLvl C.lq C.lp) ⟨a, i⟩ skOut.value ⟨rk, i⟩) m
    return (⟨sk.id, rotidx.toNat, rk⟩, m)

/-- `GenDefaultRotationKeys` (mkrlwe/keygen.go 232-237): the set stores the pointers. -/
def genDefaultLoopM (kg : KG) (e : ℕ → ℕ → Nega C.N ℤ) (sk : SkA) (rotidx : ℕ)
    (set : RotationKeySet RotA) (m : PMem C) : Go (RotationKeySet RotA × PMem C) :=
  if _h : rotidx < C.N / 2 ∧ 0 < rotidx then do
    let (rtk, m) ← GenRotationKeyM kg (e rotidx) rotidx sk m
    genDefaultLoopM kg e sk (rotidx * 2) (set.add RotA.id RotA.rotIdx rtk) m
  else .ok (set, m)
termination_by C.N / 2 - rotidx

/-- `GenConjugationKey` (mkrlwe/keygen.go 240-267). -/
def GenConjugationKeyM (kg : KG) (e : ℕ → Nega C.N ℤ) (sk : SkA) (m : PMem C) :
    Go (CjA × PMem C) := do
  let skOut : SkA := ⟨sk.id, ⟨m.next, 0⟩⟩
  let m := m.fresh
  let m := permuteM (galRow C.N) sk.value skOut.value m
  let cjk := m.next
  let m := m.fresh
  let m := GenSwitchingKeyM kg e skOut cjk m
  let a ← kg.crs.deref (-2)
  let m := forLt C.betaMax (fun i m =>
    m.op2 (QP.mulMontSubLvl C.lq C.lp) ⟨a, i⟩ sk.value ⟨cjk, i⟩) m
  return (⟨sk.id, cjk⟩, m)

/-- `sk.CopyNew()` (mkrlwe/keys.go 287-297) on a key that is not nil. -/
def SkA.CopyNewM (sk : SkA) (m : PMem C) : SkA × PMem C :=
  let v : Ptr := ⟨m.next, 0⟩
  (⟨sk.id, v⟩, m.fresh.op1 (fun a _ => a) sk.value v)

/-- `pk.CopyNew()` (mkrlwe/keys.go 300-311) on a key that is not nil. -/
def PkA.CopyNewM (pk : PkA) (m : PMem C) : PkA × PMem C :=
  let v0 : Ptr := ⟨m.next, 0⟩
  let m := m.fresh.op1 (fun a _ => a) pk.value0 v0
  let v1 : Ptr := ⟨m.next, 0⟩
  (⟨pk.id, v0, v1⟩, m.fresh.op1 (fun a _ => a) pk.value1 v1)

/-! ## Reading keys back -/

/-- The contents of a key in a memory. -/
def SkA.read (k : SkA) (m : PMem C) : SecretKey C := ⟨k.id, m.val k.value⟩
def PkA.read (k : PkA) (m : PMem C) : PublicKey C := ⟨k.id, m.val k.value0, m.val k.value1⟩
def RlkA.read (k : RlkA) (m : PMem C) : RelinKey C := ⟨k.id, m.obj k.b, m.obj k.d, m.obj k.v⟩
def RotA.read (k : RotA) (m : PMem C) : RotKey C := ⟨k.id, k.rotIdx, m.obj k.value⟩
def CjA.read (k : CjA) (m : PMem C) : ConjKey C := ⟨k.id, m.obj k.value⟩

/-- The contents of the CRS map. -/
def readCRS (crs : GoMap ℤ ℕ) (m : PMem C) : CRS C := crs.mapVals fun _ o => m.obj o

/-- The objects a key occupies. -/
def SkA.objs (k : SkA) : List ℕ := [k.value.o]
def PkA.objs (k : PkA) : List ℕ := [k.value0.o, k.value1.o]
def RlkA.objs (k : RlkA) : List ℕ := [k.b, k.d, k.v]
def RotA.objs (k : RotA) : List ℕ := [k.value]
def CjA.objs (k : CjA) : List ℕ := [k.value]

/-! ## Memory lemmas -/

namespace PMem

theorem ext' {m m' : PMem C} (h : ∀ p, m.val p = m'.val p) (hn : m.next = m'.next) :
    m = m' := by
  obtain ⟨v, n⟩ := m
  obtain ⟨v', n'⟩ := m'
  obtain rfl : v = v' := funext h
  obtain rfl : n = n' := hn
  rfl

/-- The memory with the contents of the object `o` replaced. -/
def setObj (m : PMem C) (o : ℕ) (v : SwKey C) : PMem C :=
  { m with val := fun p => if p.o = o then v p.k else m.val p }

theorem wr_val (m : PMem C) (p q : Ptr) (f : QP C → QP C) :
    (m.wr p f).val q = if q = p then f (m.val p) else m.val q := by
  unfold wr
  by_cases h : q = p
  · subst h; simp
  · simp [h]

@[simp] theorem wr_next (m : PMem C) (p : Ptr) (f : QP C → QP C) : (m.wr p f).next = m.next := rfl
@[simp] theorem op1_next (m : PMem C) (f : QP C → QP C → QP C) (a p : Ptr) :
    (m.op1 f a p).next = m.next := rfl
@[simp] theorem op2_next (m : PMem C) (f : QP C → QP C → QP C → QP C) (a b p : Ptr) :
    (m.op2 f a b p).next = m.next := rfl
@[simp] theorem setObj_next (m : PMem C) (o : ℕ) (v : SwKey C) :
    (m.setObj o v).next = m.next := rfl
@[simp] theorem fresh_next (m : PMem C) : m.fresh.next = m.next + 1 := rfl

theorem wr_val_self (m : PMem C) (p : Ptr) (f : QP C → QP C) :
    (m.wr p f).val p = f (m.val p) := by rw [wr_val, if_pos rfl]

theorem wr_val_of_ne (m : PMem C) {p q : Ptr} (f : QP C → QP C) (h : q ≠ p) :
    (m.wr p f).val q = m.val q := by rw [wr_val, if_neg h]

theorem wr_wr (m : PMem C) (p : Ptr) (f g : QP C → QP C) :
    (m.wr p f).wr p g = m.wr p fun x => g (f x) := by
  refine ext' (fun q => ?_) rfl
  by_cases h : q = p
  · subst h; simp only [wr_val_self]
  · simp only [wr_val_of_ne _ _ h]

theorem wr_congr (m : PMem C) (p : Ptr) {f g : QP C → QP C} (h : f (m.val p) = g (m.val p)) :
    m.wr p f = m.wr p g := by unfold wr; rw [h]

theorem op1_self (m : PMem C) (f : QP C → QP C → QP C) (p : Ptr) :
    m.op1 f p p = m.wr p fun x => f x x := m.wr_congr p rfl

theorem fresh_val_of_ne (m : PMem C) {p : Ptr} (h : p.o ≠ m.next) : m.fresh.val p = m.val p :=
  if_neg h

theorem fresh_val_next (m : PMem C) {p : Ptr} (h : p.o = m.next) : m.fresh.val p = QP.new :=
  if_pos h

theorem setObj_val_of_ne (m : PMem C) {o : ℕ} (v : SwKey C) {p : Ptr} (h : p.o ≠ o) :
    (m.setObj o v).val p = m.val p := if_neg h

theorem setObj_val (m : PMem C) (o : ℕ) (v : SwKey C) (k : ℕ) :
    (m.setObj o v).val ⟨o, k⟩ = v k := if_pos rfl

@[simp] theorem setObj_obj (m : PMem C) (o : ℕ) (v : SwKey C) : (m.setObj o v).obj o = v := by
  funext k; exact m.setObj_val o v k

theorem setObj_self (m : PMem C) (o : ℕ) : m.setObj o (m.obj o) = m := by
  refine ext' (fun p => ?_) rfl
  by_cases h : p.o = o
  · obtain ⟨a, b⟩ := p
    obtain rfl : a = o := h
    exact m.setObj_val a _ b
  · exact m.setObj_val_of_ne _ h

theorem setObj_wr (m : PMem C) (o : ℕ) (v : SwKey C) (k : ℕ) (f : QP C → QP C) :
    (m.setObj o v).wr ⟨o, k⟩ f = m.setObj o (Function.update v k (f (v k))) := by
  refine ext' (fun p => ?_) rfl
  by_cases h : p.o = o
  · obtain ⟨a, b⟩ := p
    obtain rfl : a = o := h
    rw [setObj_val, wr_val, setObj_val]
    by_cases hb : b = k
    · subst hb; simp
    · rw [if_neg (by simpa using hb), setObj_val, Function.update_of_ne hb]
  · rw [setObj_val_of_ne _ _ h, wr_val_of_ne _ _ (by rintro rfl; exact h rfl),
      setObj_val_of_ne _ _ h]

theorem wr_eq_setObj (m : PMem C) (o k : ℕ) (f : QP C → QP C) :
    m.wr ⟨o, k⟩ f = m.setObj o (Function.update (m.obj o) k (f (m.val ⟨o, k⟩))) := by
  conv_lhs => rw [← m.setObj_self o]
  rw [setObj_wr]; rfl

theorem setObj_setObj (m : PMem C) (o : ℕ) (v w : SwKey C) :
    (m.setObj o v).setObj o w = m.setObj o w := by
  refine ext' (fun p => ?_) rfl
  by_cases h : p.o = o
  · obtain ⟨a, b⟩ := p
    obtain rfl : a = o := h
    rw [setObj_val, setObj_val]
  · simp only [setObj_val_of_ne _ _ h]

theorem fresh_obj (m : PMem C) : m.fresh.obj m.next = SwKey.new := by
  funext k; exact m.fresh_val_next rfl

/-- A loop writing cell `i` of the object `o` in round `i`, where what is written depends only
on the cell itself and on memory outside `o`. -/
theorem forLt_obj (m : PMem C) (o n : ℕ) (body : ℕ → PMem C → PMem C) (g : ℕ → QP C → QP C)
    (h : ∀ i v, body i (m.setObj o v) = (m.setObj o v).wr ⟨o, i⟩ (g i)) :
    forLt n body m =
      m.setObj o (forLt n (fun i s => Function.update s i (g i (s i))) (m.obj o)) := by
  induction n with
  | zero => exact (m.setObj_self o).symm
  | succ n ih =>
    show body n (forLt n body m) = _
    rw [ih, h, setObj_wr]
    rfl

end PMem

/-! ## The functions as equations on memory -/

open PMem

theorem GenGaussianErrorM_eq (e : Nega C.N ℤ) (out : Ptr) (m : PMem C) :
    GenGaussianErrorM e out m = m.wr out (GenGaussianError e) := by
  unfold GenGaussianErrorM
  simp only [op1_self, wr_wr]
  rfl

theorem gadgetLoopM_eq (levelQ base : ℕ) {pool out : Ptr} (h : pool ≠ out) (n j : ℕ)
    (m : PMem C) :
    gadgetLoopM levelQ base pool out n j m =
      m.wr out fun x => { x with Q := gadgetLoop levelQ base (m.val pool).Q n j x.Q } := by
  induction n generalizing j m with
  | zero =>
    refine ext' (fun q => ?_) rfl
    by_cases hq : q = out
    · subst hq; rw [wr_val_self]; rfl
    · rw [wr_val_of_ne _ _ hq]; rfl
  | succ n ih =>
    unfold gadgetLoopM
    by_cases hb : base + j ≥ levelQ + 1
    · rw [if_pos hb]
      refine ext' (fun q => ?_) rfl
      by_cases hq : q = out
      · subst hq; rw [wr_val_self]; simp only [gadgetLoop, if_pos hb]
      · rw [wr_val_of_ne _ _ hq]
    · rw [if_neg hb, ih, op1, wr_wr, wr_val_of_ne _ _ h]
      refine m.wr_congr out ?_
      simp only [gadgetLoop, if_neg hb]

/-- `GenSwitchingKey` on memory: the pool and the key are written, nothing else. -/
theorem GenSwitchingKeyM_eq (kg : KG) (e : ℕ → Nega C.N ℤ) (sk : SkA) {swk : ℕ}
    (h : swk ≠ kg.poolQ.o) (m : PMem C) :
    GenSwitchingKeyM kg e sk swk m =
      (m.wr kg.poolQ fun x => ⟨(GenSwitchingKey x.Q e (sk.read m) (m.obj swk)).1, x.P⟩).setObj swk
        (GenSwitchingKey (m.val kg.poolQ).Q e (sk.read m) (m.obj swk)).2 := by
  unfold GenSwitchingKeyM
  have hne : ∀ k, kg.poolQ ≠ (⟨swk, k⟩ : Ptr) := fun k hk => h (by rw [hk])
  dsimp only
  set m1 := m.op1 (fun a x => { x with Q := RPoly.mulScalarLvl C.lq a.Q (C.P : ℤ) x.Q })
    sk.value kg.poolQ with hm1
  rw [m1.forLt_obj swk C.betaMax _ (fun i => swkEntry e (m1.val kg.poolQ).Q i)]
  · have hobj : m1.obj swk = m.obj swk := by
      funext k
      exact m.wr_val_of_ne _ (hne k).symm
    have hpool : (m1.val kg.poolQ).Q =
        RPoly.mulScalarLvl C.lq (m.val sk.value).Q (C.P : ℤ) (m.val kg.poolQ).Q := by
      rw [hm1, op1, wr_val_self]
    rw [hobj, hpool]
    rfl
  · intro i v
    simp only [op1_self, wr_wr]
    rw [gadgetLoopM_eq _ _ (hne i), wr_wr]
    rw [wr_val_of_ne _ _ (hne i), setObj_val_of_ne _ _ (Ne.symm h)]
    rfl

/-! ## The scratch contents do not matter -/

theorem gadgetLoop_congr (levelQ base : ℕ) {pool pool' : RQ C}
    (h : ∀ i ≤ levelQ, pool.row i = pool'.row i) (n j : ℕ) (p : RQ C) :
    gadgetLoop levelQ base pool n j p = gadgetLoop levelQ base pool' n j p := by
  induction n generalizing j p with
  | zero => rfl
  | succ n ih =>
    unfold gadgetLoop
    by_cases hb : base + j ≥ levelQ + 1
    · rw [if_pos hb, if_pos hb]
    · rw [if_neg hb, if_neg hb, ih, h _ (by omega)]

/-- The key written by `GenSwitchingKey` does not depend on what `poolQ` contained. -/
theorem GenSwitchingKey_pool (p p' : RQ C) (e : ℕ → Nega C.N ℤ) (sk : SecretKey C)
    (swk : SwKey C) : (GenSwitchingKey p e sk swk).2 = (GenSwitchingKey p' e sk swk).2 := by
  unfold GenSwitchingKey
  dsimp only
  congr 1
  funext i s
  congr 1
  unfold swkEntry
  dsimp only
  congr 1
  refine gadgetLoop_congr _ _ (fun i hi => ?_) _ _ _
  unfold RPoly.mulScalarLvl
  rw [RPoly.write_row_of_le _ _ hi, RPoly.write_row_of_le _ _ hi]

theorem RPoly.write_congr {N : ℕ} [NeZero N] {q : ℕ → ℕ} {l : ℕ} {f g : (i : ℕ) → Row N (q i)}
    (h : ∀ i ≤ l, f i = g i) (out : RPoly N q) : out.write l f = out.write l g := by
  unfold RPoly.write
  congr 1
  funext i
  by_cases hi : i ≤ l
  · simp only [hi, if_true, h i hi]
  · simp only [hi, if_false]

theorem GenGaussianError_rows_pool (e : Nega C.N ℤ) (t t' : QP C) :
    (∀ i ≤ C.lq, (GenGaussianError e t).Q.row i = (GenGaussianError e t').Q.row i) ∧
    ∀ i ≤ C.lp, (GenGaussianError e t).P.row i = (GenGaussianError e t').P.row i := by
  unfold GenGaussianError
  refine ⟨fun i hi => ?_, fun i hi => ?_⟩
  · simp only [QP.nttLvl, RPoly.nttLvl, RPoly.readLvl, RPoly.write_row_of_le _ _ hi]
  · simp only [QP.nttLvl, RPoly.nttLvl, QP.extendBasis, RPoly.readLvl,
      RPoly.write_row_of_le _ _ hi, RPoly.write_row_of_le _ _ (Nat.zero_le _)]

/-- One entry of `b` (mkrlwe/keygen.go 163-169) with a zero scratch polynomial. -/
def bEntry (a : SwKey C) (sk : SecretKey C) (e : ℕ → Nega C.N ℤ) (i : ℕ) (x : QP C) : QP C :=
  let bi := QP.mulMontLvl C.lq C.lp (a i) sk.value x
  let bi := QP.invMformLvl C.lq C.lp bi bi
  let bi := QP.subLvl C.lq C.lp (GenGaussianError (e i) QP.new) bi bi
  QP.mformLvl C.lq C.lp bi bi

theorem subLvl_pool (e : Nega C.N ℤ) (t t' b x : QP C) :
    QP.subLvl C.lq C.lp (GenGaussianError e t) b x =
      QP.subLvl C.lq C.lp (GenGaussianError e t') b x := by
  obtain ⟨hq, hp⟩ := GenGaussianError_rows_pool e t t'
  unfold QP.subLvl RPoly.subLvl
  congr 1
  · exact RPoly.write_congr (fun i hi => by rw [hq i hi]) _
  · exact RPoly.write_congr (fun i hi => by rw [hp i hi]) _

theorem genB_pool (a : SwKey C) (sk : SecretKey C) (e : ℕ → Nega C.N ℤ) (n : ℕ) (t : QP C)
    (b : SwKey C) : (forLt n (genBStep a sk e) (t, b)).2 =
      forLt n (fun i s => Function.update s i (bEntry a sk e i (s i))) b := by
  induction n with
  | zero => rfl
  | succ n ih =>
    show (genBStep a sk e n (forLt n (genBStep a sk e) (t, b))).2 = _
    revert ih
    generalize forLt n (genBStep a sk e) (t, b) = st
    obtain ⟨t1, b1⟩ := st
    rintro rfl
    show Function.update _ n _ = Function.update _ n _
    congr 1
    unfold bEntry
    dsimp only
    rw [subLvl_pool (e n) _ QP.new]

/-! ## What is preserved and what is new -/

/-- Objects of the caller: allocated, and not a pool of the generator. -/
def KG.Owns (kg : KG) (m : PMem C) (o : ℕ) : Prop :=
  o < m.next ∧ o ≠ kg.poolQ.o ∧ o ≠ kg.poolQP.o

/-- A key generator in a memory: its pools are allocated and are not CRS vectors. -/
structure KG.WF (kg : KG) (m : PMem C) : Prop where
  poolQ : kg.poolQ.o < m.next
  poolQP : kg.poolQP.o < m.next
  crs : ∀ e ∈ kg.crs.entries, kg.Owns m e.2

/-- Nothing of the caller changes. -/
def KG.Keeps (kg : KG) (m m' : PMem C) : Prop :=
  m.next ≤ m'.next ∧ ∀ p : Ptr, kg.Owns m p.o → m'.val p = m.val p

/-- The objects `l` are new and pairwise distinct. -/
def PMem.New (m m' : PMem C) (l : List ℕ) : Prop :=
  l.Nodup ∧ ∀ o ∈ l, m.next ≤ o ∧ o < m'.next

/-- The call `y` on memory does what the call `x` on values does: it panics when `x` panics,
and otherwise what it returns, read from the memory afterwards, is what `x` returns; it is
stored in new objects, and nothing of the caller changes. -/
def KG.Impl {α β : Type} (kg : KG) (m : PMem C) (x : Go α) (y : Go (β × PMem C))
    (read : β → PMem C → α) (objs : β → List ℕ) : Prop :=
  match x with
  | .error p => y = .error p
  | .ok k => ∃ k' m', y = .ok (k', m') ∧ read k' m' = k ∧ kg.Keeps m m' ∧ m.New m' (objs k')

theorem KG.Keeps.refl (kg : KG) (m : PMem C) : kg.Keeps m m := ⟨le_rfl, fun _ _ => rfl⟩

theorem KG.Owns.mono {kg : KG} {m m' : PMem C} (h : m.next ≤ m'.next) {o : ℕ}
    (ho : kg.Owns m o) : kg.Owns m' o := ⟨ho.1.trans_le h, ho.2⟩

theorem KG.Keeps.trans {kg : KG} {m m' m'' : PMem C} (h : kg.Keeps m m') (h' : kg.Keeps m' m'') :
    kg.Keeps m m'' :=
  ⟨h.1.trans h'.1, fun p hp => (h'.2 p (hp.mono h.1)).trans (h.2 p hp)⟩

theorem KG.Keeps.obj {kg : KG} {m m' : PMem C} (h : kg.Keeps m m') {o : ℕ} (ho : kg.Owns m o) :
    m'.obj o = m.obj o := funext fun k => h.2 ⟨o, k⟩ ho

theorem KG.WF.mono {kg : KG} {m m' : PMem C} (hw : kg.WF m) (h : m.next ≤ m'.next) :
    kg.WF m' :=
  ⟨hw.poolQ.trans_le h, hw.poolQP.trans_le h, fun e he => (hw.crs e he).mono h⟩

theorem KG.WF.owns {kg : KG} {m : PMem C} (hw : kg.WF m) {i : ℤ} {o : ℕ}
    (h : kg.crs.get? i = some o) : kg.Owns m o :=
  hw.crs (i, o) (by
    obtain ⟨l₁, l₂, hl, _⟩ := List.lookup_eq_some_iff.mp h
    simp [hl])

theorem KG.Keeps.fresh (kg : KG) (m : PMem C) : kg.Keeps m m.fresh :=
  ⟨Nat.le_succ _, fun _ hp => m.fresh_val_of_ne hp.1.ne⟩

theorem KG.Keeps.setObj {kg : KG} {m m' : PMem C} {o : ℕ} (v : SwKey C) (h : kg.Keeps m m')
    (ho : m.next ≤ o ∨ o = kg.poolQ.o ∨ o = kg.poolQP.o) : kg.Keeps m (m'.setObj o v) := by
  refine ⟨h.1, fun p hp => ?_⟩
  rw [PMem.setObj_val_of_ne, h.2 p hp]
  rintro rfl
  rcases ho with ho | ho | ho
  · exact absurd hp.1 (by omega)
  · exact hp.2.1 ho
  · exact hp.2.2 ho

/-- A loop writing cell `i` of the object `o` in round `i` and using a scratch object `t`. -/
theorem forLt_obj_tmp (m : PMem C) {o t : ℕ} (n : ℕ) (body : ℕ → PMem C → PMem C)
    (g : ℕ → QP C → QP C)
    (h : ∀ i v w, ∃ w', body i ((m.setObj o v).setObj t w) =
      (m.setObj o (Function.update v i (g i (v i)))).setObj t w') :
    ∃ w, forLt n body m =
      (m.setObj o (forLt n (fun i s => Function.update s i (g i (s i))) (m.obj o))).setObj t w := by
  induction n with
  | zero =>
    refine ⟨m.obj t, ?_⟩
    show m = (m.setObj o (m.obj o)).setObj t (m.obj t)
    rw [m.setObj_self o, m.setObj_self t]
  | succ n ih =>
    obtain ⟨w, hw⟩ := ih
    obtain ⟨w', hw'⟩ := h n (forLt n (fun i s => Function.update s i (g i (s i))) (m.obj o)) w
    refine ⟨w', ?_⟩
    show body n (forLt n body m) = _
    rw [hw, hw']
    rfl

theorem readCRS_get? (crs : GoMap ℤ ℕ) (m : PMem C) (i : ℤ) :
    (readCRS crs m).get? i = (crs.get? i).map m.obj := by
  unfold readCRS
  rw [GoMap.get?_mapVals]

theorem GenSwitchingKeyM_obj (kg : KG) (e : ℕ → Nega C.N ℤ) (sk : SkA) {swk : ℕ}
    (h : swk ≠ kg.poolQ.o) (m : PMem C) (p : RQ C) : ∃ w,
    GenSwitchingKeyM kg e sk swk m =
      (m.setObj kg.poolQ.o w).setObj swk (GenSwitchingKey p e (sk.read m) (m.obj swk)).2 := by
  rw [GenSwitchingKeyM_eq kg e sk h, GenSwitchingKey_pool _ p]
  exact ⟨_, by rw [show kg.poolQ = ⟨kg.poolQ.o, kg.poolQ.k⟩ from rfl, wr_eq_setObj]⟩

/-! ## A user of the key generator -/

/-- What a user does after `NewParameters` and `NewKeyGenerator`: generate keys from earlier
secret keys (named by their position) in any order, and add CRS vectors.  The samples are part
of the command. -/
inductive KCmd (C : Ctx) where
  | genSk (s : Nega C.N ℤ) (id : String)
  | genPk (i : ℕ) (e : Nega C.N ℤ)
  | genRlk (i j : ℕ) (eb ed ev : ℕ → Nega C.N ℤ)
  | genRot (i : ℕ) (rotidx : ℤ) (e : ℕ → Nega C.N ℤ)
  | genCj (i : ℕ) (e : ℕ → Nega C.N ℤ)
  | addCRS (idx : ℤ) (u : ℕ → QP C)

/-- The user's state on memory: the memory, the generator and the pointers obtained so far. -/
structure KState (C : Ctx) where
  m : PMem C
  kg : KG
  sks : List SkA
  pks : List PkA
  rlks : List RlkA
  rots : List RotA
  cjs : List CjA

/-- One command on memory.  A command naming a secret key that does not exist does nothing. -/
def KCmd.runM (st : KState C) : KCmd C → Go (KState C)
  | .genSk s id =>
    let (k, m) := GenSecretKeyM s id st.m
    .ok { st with m := m, sks := st.sks ++ [k] }
  | .genPk i e =>
    match st.sks[i]? with
    | none => .ok st
    | some sk => do
      let (k, m) ← GenPublicKeyM st.kg e sk st.m
      return { st with m := m, pks := st.pks ++ [k] }
  | .genRlk i j eb ed ev =>
    match st.sks[i]?, st.sks[j]? with
    | some sk, some r => do
      let (k, m) ← GenRelinearizationKeyM st.kg eb ed ev sk r st.m
      return { st with m := m, rlks := st.rlks ++ [k] }
    | _, _ => .ok st
  | .genRot i rotidx e =>
    match st.sks[i]? with
    | none => .ok st
    | some sk => do
      let (k, m) ← GenRotationKeyM st.kg e rotidx sk st.m
      return { st with m := m, rots := st.rots ++ [k] }
  | .genCj i e =>
    match st.sks[i]? with
    | none => .ok st
    | some sk => do
      let (k, m) ← GenConjugationKeyM st.kg e sk st.m
      return { st with m := m, cjs := st.cjs ++ [k] }
  | .addCRS idx u =>
    let (crs, m) := addCRSM st.kg.crs idx u st.m
    .ok { st with m := m, kg := { st.kg with crs := crs } }

/-- A sequence of commands on memory. -/
def runM (st : KState C) : List (KCmd C) → Go (KState C)
  | [] => .ok st
  | c :: l => do
    let st ← c.runM st
    runM st l

/-- `NewParameters` followed by `NewKeyGenerator`, in a memory that may already hold other
objects. -/
def startM (logN : ℕ) (u : ℤ → ℕ → QP C) (m : PMem C) : KState C :=
  let (crs, m) := newCRSM logN u m
  let (kg, m) := newKeyGenM crs m
  ⟨m, kg, [], [], [], [], []⟩

/-- The objects of all keys obtained so far. -/
def KState.objs (st : KState C) : List ℕ :=
  st.sks.flatMap SkA.objs ++ st.pks.flatMap PkA.objs ++ st.rlks.flatMap RlkA.objs ++
    st.rots.flatMap RotA.objs ++ st.cjs.flatMap CjA.objs

end MK
