import Verif.EncMem

/-!
# A user of encryptor, key switcher and decryptor on memory

Extends the user of `Verif/KeyMem.lean`: besides generating keys, the user puts keys into key sets,
encrypts, makes hoisted forms, multiplies, rotates, conjugates and decrypts, in any order.  The
operations on ciphertexts are what an evaluator of mkckks does with `eval.ksw`
(mkckks/evaluator.go 416-443, 475-553, 558-600).
-/

noncomputable section

namespace MK

variable {C : Ctx}

/-- What the user can do.  Numbers are positions in the lists of the user; `ids` and `level` are
the id set and the level of the new ciphertext (`NewCiphertext`), the remaining lists are visiting
orders.
* `key`: a command of `KCmd`;
* `addRlk`, `addRot`, `addCj`: `AddRelinearizationKey`, `AddRotationKey`, `AddConjugationKey`;
* `put`: a ciphertext obtained by other means (addition, reading);
* `addSk`: `AddSecretKey`;
* `enc`: `EncryptMsgNewExpand`, with the effect `f` of the encoder and the samples `u`, `e0`, `e1`;
* `copy`: `CopyNew`;
* `pdec`: `PartialDecrypt` of a copy with the secret key `k`;
* `dec`: `Decrypt` of mkckks; the plaintext is handed to the decoder at once;
* `hoist`: `HoistedForm`;
* `mulNew`: the key switching of `MulRelinNew`: both hoisting pools are filled, or only the first
  one when the operands are the same;
* `mul`, `mulHoisted`, `rot`, `rotHoisted`, `conj`: the functions of mkrlwe. -/
inductive ECmd (C : Ctx) where
  | key (c : KCmd C)
  | addRlk (i : ℕ)
  | addRot (i : ℕ)
  | addCj (i : ℕ)
  | put (ids : List String) (v : String → RQ C)
  | hoist (i : ℕ) (o : List String)
  | mulNew (i j level l0 l1 : ℕ) (ids o0 o1 : List String) (o : MulOrd)
  | mul (i j level : ℕ) (ids : List String) (o : MulOrd)
  | mulHoisted (i j h0 h1 level : ℕ) (ids : List String) (o : MulOrd)
  | rot (i : ℕ) (r : ℤ) (level : ℕ) (ids : List String) (o : RotOrd)
  | rotHoisted (i h : ℕ) (r : ℤ) (level : ℕ) (ids : List String) (o : RotOrd)
  | conj (i level : ℕ) (ids : List String) (o : RotOrd)
  | addSk (i : ℕ)
  | enc (f : RQ C → RQ C) (i level : ℕ) (ids : List String) (u e0 e1 : Nega C.N ℤ)
  | copy (i : ℕ) (o : List String)
  | pdec (i k : ℕ) (o : List String)
  | dec (i : ℕ) (oA oC oI oS : List String)

/-- The user's state on memory (the memory is that of `k`); `outs` are the plaintexts handed to the
decoder so far. -/
structure EState (C : Ctx) where
  k : KState C
  ka : KSA
  rlk : RelinKeySet RlkA ℕ
  rot : RotationKeySet RotA
  cj : KeySet CjA
  cts : List CtA
  hts : List HtA
  ed : EDA
  skSet : KeySet SkA
  outs : List (RQ C)

/-- The memory of the user. -/
def EState.m (st : EState C) : PMem C := st.k.m

/-- The state with another memory. -/
def EState.setM (st : EState C) (m : PMem C) : EState C := { st with k := { st.k with m := m } }

/-- A new ciphertext `out`, filled by `f`. -/
def EState.evalM (st : EState C) (level : ℕ) (ids : List String)
    (f : CtA → PMem C → Go (PMem C)) : Go (EState C) := do
  let (out, m) := newCtM level ids st.m
  let m ← f out m
  return { st.setM m with cts := st.cts ++ [out] }

/-- One command on memory.  A command naming something that does not exist does nothing. -/
def ECmd.runM (st : EState C) : ECmd C → Go (EState C)
  | .key c => do
    let k ← c.runM st.k
    return { st with k := k }
  | .addRlk i =>
    match st.k.rlks[i]? with
    | none => .ok st
    | some k =>
      let (s, m) := addRlkM st.rlk k st.m
      .ok { st.setM m with rlk := s }
  | .addRot i =>
    match st.k.rots[i]? with
    | none => .ok st
    | some k => .ok { st with rot := st.rot.add RotA.id RotA.rotIdx k }
  | .addCj i =>
    match st.k.cjs[i]? with
    | none => .ok st
    | some k => .ok { st with cj := st.cj.add CjA.id k }
  | .put ids v =>
    let (ct, m) := ctFromM v ids st.m
    .ok { st.setM m with cts := st.cts ++ [ct] }
  | .hoist i o =>
    match st.cts[i]? with
    | none => .ok st
    | some ct => do
      let (H, m) ← st.ka.hoistLoopM ct o (GoMap.empty, st.m)
      return { st.setM m with hts := st.hts ++ [H] }
  | .mulNew i j level l0 l1 ids o0 o1 o =>
    match st.cts[i]?, st.cts[j]? with
    | some a, some b =>
      if i = j then do
        let m ← st.ka.hoistIntoM l0 a st.rlk.pool0 o0 st.m
        (st.setM m).evalM level ids fun out m => st.ka.MulAndRelinHoistedM st.k.kg.crs a b
          (some st.rlk.pool0) (some st.rlk.pool0) st.rlk.value out o m
      else do
        let m ← st.ka.hoistIntoM l0 a st.rlk.pool0 o0 st.m
        let m ← st.ka.hoistIntoM l1 b st.rlk.pool1 o1 m
        (st.setM m).evalM level ids fun out m => st.ka.MulAndRelinHoistedM st.k.kg.crs a b
          (some st.rlk.pool0) (some st.rlk.pool1) st.rlk.value out o m
    | _, _ => .ok st
  | .mul i j level ids o =>
    match st.cts[i]?, st.cts[j]? with
    | some a, some b => st.evalM level ids fun out m =>
        st.ka.MulAndRelinM st.k.kg.crs a b st.rlk.value out o m
    | _, _ => .ok st
  | .mulHoisted i j h0 h1 level ids o =>
    match st.cts[i]?, st.cts[j]? with
    | some a, some b => st.evalM level ids fun out m =>
        st.ka.MulAndRelinHoistedM st.k.kg.crs a b st.hts[h0]? st.hts[h1]? st.rlk.value out o m
    | _, _ => .ok st
  | .rot i r level ids o =>
    match st.cts[i]? with
    | none => .ok st
    | some a => st.evalM level ids fun out m =>
        st.ka.RotateM st.k.kg.crs a r st.rot out o m
  | .rotHoisted i h r level ids o =>
    match st.cts[i]?, st.hts[h]? with
    | some a, some H => st.evalM level ids fun out m =>
        st.ka.RotateHoistedM st.k.kg.crs a r H st.rot out o m
    | _, _ => .ok st
  | .conj i level ids o =>
    match st.cts[i]? with
    | none => .ok st
    | some a => st.evalM level ids fun out m =>
        st.ka.ConjugateM st.k.kg.crs a st.cj out o m
  | .addSk i =>
    match st.k.sks[i]? with
    | none => .ok st
    | some k => .ok { st with skSet := st.skSet.add SkA.id k }
  | .enc f i level ids u e0 e1 =>
    match st.k.pks[i]? with
    | none => .ok st
    | some pk => do
      let (ct, m) ← EncryptMsgM st.ed f u e0 e1 pk level ids st.m
      return { st.setM m with cts := st.cts ++ [ct] }
  | .copy i o =>
    match st.cts[i]? with
    | none => .ok st
    | some ct => do
      let (ct, m) ← ct.CopyNewM o st.m
      return { st.setM m with cts := st.cts ++ [ct] }
  | .pdec i k o =>
    match st.cts[i]?, st.k.sks[k]? with
    | some ct, some sk => do
      let (ct, m) ← ct.CopyNewM o st.m
      let (ct, m) ← PartialDecryptM ct sk m
      return { st.setM m with cts := st.cts ++ [ct] }
    | _, _ => .ok st
  | .dec i oA oC oI oS =>
    match st.cts[i]? with
    | none => .ok st
    | some ct => do
      let m ← CDecryptM st.ed ct st.skSet oA oC oI oS st.m
      return { st.setM m with outs := st.outs ++ [m.q st.ed.dpool] }

/-- A sequence of commands on memory. -/
def runEM (st : EState C) : List (ECmd C) → Go (EState C)
  | [] => .ok st
  | c :: l => do
    let st ← c.runM st
    runEM st l

/-- `NewParameters`, `NewKeyGenerator`, `NewKeySwitcher`, `NewEncryptor`, `NewDecryptor` and empty key
sets, in a memory that may already hold other objects. -/
def startEM (logN : ℕ) (u : ℤ → ℕ → QP C) (m : PMem C) : EState C :=
  let k := startM logN u m
  let (ka, m) := newKeySwitcherM k.m
  let (ed, m) := newEncDecM m
  ⟨{ k with m := m }, ka, .new, .new, .new, [], [], ed, .new, []⟩

end MK
