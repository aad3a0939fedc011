import Verif.KsMem
import Verif.CDec

/-!
# mkrlwe/encryptor.go and mkrlwe/decryptor.go on memory

Continues `Verif/KsMem.lean`.  The scratch polynomial of the encryptor, the plaintext pools of
the encryptor and of the decryptor, the public and secret keys and the components of the
ciphertexts are cells of one memory.
-/

noncomputable section

namespace MK

variable {C : Ctx}

/-- The scratch polynomials of a `mkckks.Encryptor` and a `mkckks.Decryptor`, in the order of
allocation; `base` is the first.  (`mkrlwe.Decryptor.pool`, mkrlwe/decryptor.go 11, is never
used.) -/
structure EDA where
  base : ℕ

namespace EDA

/-- `poolQ[0]` of the embedded `mkrlwe.Encryptor` (mkrlwe/encryptor.go 14). -/
def poolQ (ed : EDA) : Ptr := ⟨ed.base, 0⟩
/-- `ptxtPool.Value` of the encryptor (mkckks/encryptor.go 12). -/
def ptxt (ed : EDA) : Ptr := ⟨ed.base + 1, 0⟩
/-- `ptxtPool.Value` of the decryptor (mkckks/decryptor.go 10). -/
def dpool (ed : EDA) : Ptr := ⟨ed.base + 2, 0⟩

/-- The scratch objects. -/
def Has (ed : EDA) (o : ℕ) : Prop := ed.base ≤ o ∧ o < ed.base + 3

end EDA

/-- The contents of the scratch polynomials. -/
structure EDVal (C : Ctx) where
  poolQ : RQ C
  ptxt : RQ C
  dpool : RQ C

/-- The scratch polynomials as values. -/
def EDA.read (ed : EDA) (m : PMem C) : EDVal C := ⟨m.q ed.poolQ, m.q ed.ptxt, m.q ed.dpool⟩

/-- The scratch polynomials of a new encryptor and a new decryptor. -/
def EDVal.new : EDVal C :=
  ⟨RPoly.new C.nQ, { (RPoly.new C.nQ : RQ C) with isNTT := true },
    { (RPoly.new C.nQ : RQ C) with isNTT := false }⟩

/-- `NewEncryptor` (mkckks/encryptor.go 17-28) and `NewDecryptor` (mkckks/decryptor.go 14-24):
the plaintext of the encryptor is in NTT form, that of the decryptor is not. -/
def newEncDecM (m : PMem C) : EDA × PMem C :=
  let ed : EDA := ⟨m.next⟩
  let m := m.fresh.fresh.fresh
  let m := m.wrQ ed.poolQ fun _ => RPoly.new C.nQ
  let m := m.wrQ ed.ptxt fun _ => { (RPoly.new C.nQ : RQ C) with isNTT := true }
  (ed, m.wrQ ed.dpool fun _ => { (RPoly.new C.nQ : RQ C) with isNTT := false })

/-- A statement changing the component `id` of a ciphertext in place. -/
def updM (out : CtA) (id : String) (f : RQ C → RQ C) (m : PMem C) : Go (PMem C) := do
  let c ← out.deref id
  return m.wrQ c f

/-- A statement changing the component `id` of a ciphertext, on values. -/
def updV (ct : Ct C) (id : String) (f : RQ C → RQ C) : Go (Ct C) := do
  let c ← ct.value.deref id
  return ⟨ct.value.set id (f c)⟩

/-- `Encrypt` (mkrlwe/encryptor.go 55-118) on values, every statement reading and writing the
components through the map.  The function `Encrypt` of `Verif/EncDec.lean` keeps the two components
in local variables, which is the same unless `pk.ID = "0"` (`encryptV_eq`). -/
def encryptV (pool : RQ C) (u e0 e1 : Nega C.N ℤ) (pt : RQ C) (pk : PublicKey C) (ct : Ct C) :
    Go (RQ C × Ct C) := do
  let id := pk.id
  let ctLevel ← ct.Level
  let levelQ := min pt.level ctLevel
  let c0 ← ct.value.deref "0"
  let ciphertextNTT := c0.isNTT
  -- lines 65-67
  let pool := pool.readLvl levelQ u
  let pool := pool.nttLvl C.nttQ levelQ pool
  let pool := pool.mformLvl levelQ pool
  -- lines 70, 72
  let ct ← updV ct "0" (RPoly.mulMontLvl levelQ pool pk.value0.Q)
  let ct ← updV ct id (RPoly.mulMontLvl levelQ pool pk.value1.Q)
  let (pool, ct) ← (show Go (RQ C × Ct C) from
    if ciphertextNTT then do
      -- lines 77-79
      let pool := pool.readLvl levelQ e1
      let pool := pool.nttLvl C.nttQ levelQ pool
      let ct ← updV ct id (fun x => RPoly.addLvl levelQ x pool x)
      -- line 82
      let pool := pool.readLvl levelQ e0
      if !pt.isNTT then do
        let pool := RPoly.addLvl levelQ pool pt pool
        let pool := pool.nttLvl C.nttQ levelQ pool
        let ct ← updV ct "0" (fun x => RPoly.addLvl levelQ x pool x)
        pure (pool, ct)
      else do
        let pool := pool.nttLvl C.nttQ levelQ pool
        let ct ← updV ct "0" (fun x => RPoly.addLvl levelQ x pool x)
        let ct ← updV ct "0" (fun x => RPoly.addLvl levelQ x pt x)
        pure (pool, ct)
    else do
      -- lines 96-103
      let ct ← updV ct "0" (fun x => x.invNttLvl C.nttQ levelQ x)
      let ct ← updV ct id (fun x => x.invNttLvl C.nttQ levelQ x)
      let l ← ct.Level
      let ct ← updV ct "0" (fun x => x.readAndAddLvl l e0)
      let l ← ct.Level
      let ct ← updV ct id (fun x => x.readAndAddLvl l e1)
      if !pt.isNTT then do
        let ct ← updV ct "0" (fun x => RPoly.addLvl levelQ x pt x)
        pure (pool, ct)
      else do
        let pool := pt.invNttLvl C.nttQ levelQ pool
        let ct ← updV ct "0" (fun x => RPoly.addLvl levelQ x pool x)
        pure (pool, ct))
  -- lines 113-116
  let c0 ← ct.value.deref "0"
  let ct ← updV ct id (fun x => { x with isNTT := c0.isNTT })
  let ct ← updV ct "0" (fun x => x.truncate (levelQ + 1))
  let ct ← updV ct id (fun x => x.truncate (levelQ + 1))
  return (pool, ct)

/-- `Encrypt` (mkrlwe/encryptor.go 55-118): `pool` is `encryptor.poolQ[0]`, `pt` the value of the
plaintext.  With `pk.ID = "0"` the two components are the same polynomial. -/
def EncryptM (pool pt : Ptr) (u e0 e1 : Nega C.N ℤ) (pk : PkA) (out : CtA) (m : PMem C) :
    Go (PMem C) := do
  let id := pk.id
  let ctLevel ← out.levelM m
  let levelQ := min (m.q pt).level ctLevel
  let c0 ← out.deref "0"
  let ciphertextNTT := (m.q c0).isNTT
  -- lines 65-67
  let m := m.wrQ pool fun x => x.readLvl levelQ u
  let m := m.wrQ pool fun x => x.nttLvl C.nttQ levelQ x
  let m := m.wrQ pool fun x => x.mformLvl levelQ x
  -- lines 70, 72
  let m ← updM out "0" (RPoly.mulMontLvl levelQ (m.q pool) (m.q pk.value0)) m
  let m ← updM out id (RPoly.mulMontLvl levelQ (m.q pool) (m.q pk.value1)) m
  let m ← (show Go (PMem C) from
    if ciphertextNTT then do
      -- lines 77-79
      let m := m.wrQ pool fun x => x.readLvl levelQ e1
      let m := m.wrQ pool fun x => x.nttLvl C.nttQ levelQ x
      let m ← updM out id (fun x => RPoly.addLvl levelQ x (m.q pool) x) m
      -- line 82
      let m := m.wrQ pool fun x => x.readLvl levelQ e0
      if !(m.q pt).isNTT then do
        let m := m.wrQ pool fun x => RPoly.addLvl levelQ x (m.q pt) x
        let m := m.wrQ pool fun x => x.nttLvl C.nttQ levelQ x
        updM out "0" (fun x => RPoly.addLvl levelQ x (m.q pool) x) m
      else do
        let m := m.wrQ pool fun x => x.nttLvl C.nttQ levelQ x
        let m ← updM out "0" (fun x => RPoly.addLvl levelQ x (m.q pool) x) m
        updM out "0" (fun x => RPoly.addLvl levelQ x (m.q pt) x) m
    else do
      -- lines 96-103
      let m ← updM out "0" (fun x => x.invNttLvl C.nttQ levelQ x) m
      let m ← updM out id (fun x => x.invNttLvl C.nttQ levelQ x) m
      let l ← out.levelM m
      let m ← updM out "0" (fun x => x.readAndAddLvl l e0) m
      let l ← out.levelM m
      let m ← updM out id (fun x => x.readAndAddLvl l e1) m
      if !(m.q pt).isNTT then
        updM out "0" (fun x => RPoly.addLvl levelQ x (m.q pt) x) m
      else do
        let m := m.wrQ pool ((m.q pt).invNttLvl C.nttQ levelQ)
        updM out "0" (fun x => RPoly.addLvl levelQ x (m.q pool) x) m)
  -- lines 113-116
  let c0 ← out.deref "0"
  let m ← updM out id (fun x => { x with isNTT := (m.q c0).isNTT }) m
  let m ← updM out "0" (fun x => x.truncate (levelQ + 1)) m
  updM out id (fun x => x.truncate (levelQ + 1)) m

/-- A new cell with the contents of `c`. -/
def copyCellM (g : CtA) (id : String) (c : Ptr) (m : PMem C) : CtA × PMem C :=
  (g.set id ⟨m.next, 0⟩, m.fresh.wrQ ⟨m.next, 0⟩ fun _ => m.q c)

/-- `CopyNew` (mkrlwe/elements.go 70-81). -/
def CtA.CopyNewM (ct : CtA) (o : List String) (m : PMem C) : Go (CtA × PMem C) := do
  let c0 ← ct.deref "0"
  forEach o (fun id (s : CtA × PMem C) => do
    let p ← ct.deref id
    return copyCellM s.1 id p s.2) (copyCellM GoMap.empty "0" c0 m)

/-- `PartialDecrypt` (mkrlwe/decryptor.go 26-43): the result is the map without `sk.ID`. -/
def PartialDecryptM (ct : CtA) (sk : SkA) (m : PMem C) : Go (CtA × PMem C) := do
  let id := sk.id
  let level ← ct.levelM m
  let c ← ct.deref id
  let m := if !(m.q c).isNTT then m.wrQ c fun x => x.nttLvl C.nttQ level x else m
  let m := m.wrQ c fun x => RPoly.mulMontLvl level x (m.q sk.value) x
  let m := if !(m.q c).isNTT then m.wrQ c fun x => x.invNttLvl C.nttQ level x else m
  let c0 ← ct.deref "0"
  let m := m.wrQ c0 fun x => RPoly.addLvl level x (m.q c) x
  return (ct.del id, m)

/-- The loop of `Decrypt` over the secret keys (mkrlwe/decryptor.go 55-59). -/
def decryptLoopM (idset : IDSet) (skSet : KeySet SkA) (o : List String) (s : CtA × PMem C) :
    Go (CtA × PMem C) :=
  forEach o (fun k (s : CtA × PMem C) => do
    let sk ← skSet.value.deref k
    if idset.Has sk.id then PartialDecryptM s.1 sk s.2 else return s) s

/-- `Decrypt` (mkrlwe/decryptor.go 48-66); `pt` is the value of the plaintext. -/
def DecryptM (ct : CtA) (skSet : KeySet SkA) (pt : Ptr) (oC oI oS : List String) (m : PMem C) :
    Go (PMem C) := do
  let ctLevel ← ct.levelM m
  let level := min ctLevel (m.q pt).level
  let m := m.wrQ pt fun x => x.truncate (level + 1)
  let (tmp, m) ← ct.CopyNewM oC m
  let idset ← Ct.idLoop IDSet.new oI
  let (tmp, m) ← decryptLoopM idset skSet oS (tmp, m)
  if tmp.size > 1 then
    .error (.msg "Cannot Decrypt: there is a missing secretkey")
  else do
    let c0 ← tmp.deref "0"
    return m.wrQ pt fun x => (m.q c0).copyLvl level x

/-- `Decrypt` (mkckks/decryptor.go 34-43) up to the decoding of `ptxtPool`; `oA` is the visiting
order of the first copy. -/
def CDecryptM (ed : EDA) (ct : CtA) (skSet : KeySet SkA) (oA oC oI oS : List String)
    (m : PMem C) : Go (PMem C) := do
  let (tmp, m) ← ct.CopyNewM oA m
  DecryptM tmp skSet ed.dpool oC oI oS m

/-- `EncryptMsgNewExpand` (mkckks/encryptor.go 60-65) into a new ciphertext of level `level` for
the id set `ids`; `enc` is what the encoder does to `ptxtPool.Value`. -/
def EncryptMsgM (ed : EDA) (enc : RQ C → RQ C) (u e0 e1 : Nega C.N ℤ) (pk : PkA) (level : ℕ)
    (ids : List String) (m : PMem C) : Go (CtA × PMem C) := do
  let (out, m) := newCtM level ids m
  let m := m.wrQ ed.ptxt enc
  let m ← EncryptM ed.poolQ ed.ptxt u e0 e1 pk out m
  return (out, m)

end MK
