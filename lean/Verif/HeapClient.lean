import Verif.HeapConst
import Verif.Word

/-!
# Client programs

A client of the package holds pointers to ciphertexts, hoisted forms and relinearisation key sets, and
calls the exported functions on them.  `Cmd` lists the calls; the client names its objects by the order
in which it got them.  `pStep` executes a call on the memory, `vStep` executes the same call on values:
there an object is a value, a call that writes an object replaces that value, and nothing else changes.

The client is arbitrary: a function of all it can see, which is everything its pointers lead to, all
results returned so far, and the number of calls made.
-/

noncomputable section

namespace MK

variable {C : Ctx} {Msg : Type}

open MK.Word (idx)

namespace Mem

/-- `&ring.Poly` with contents `v`. -/
def newPoly (v : RQ C) : HM C ℕ := fun h =>
  .ok (h.next, { h with poly := Function.update h.poly h.next v, next := h.next + 1 })

/-- `NewEvaluator` (mkckks/evaluator.go 23-38), for parameters with special primes. -/
def newEvaluator : HM C (HEv C) := do
  let a ← newCiphertext C.lq []
  let q ← newPoly { RPoly.new C.nQ with isNTT := true }
  return ⟨⟨a, q⟩, KS.new⟩

/-- `DropLevel` (mkckks/evaluator.go 106-112) of a `mkckks.Ciphertext`. -/
def dropLevelC (x : ℕ) (levels : ℕ) (π : Sched) : HM C Unit := do
  let a ← ctOf x
  let k ← keysOf a
  dropLevel a levels (π.f 0 k)

/-- `PadCiphertext` (mkrlwe/elements.go 91-105) of the embedded ciphertext. -/
def padC (x : ℕ) (ids : IDSet) (π : Sched) : HM C Unit := do
  let a ← ctOf x
  let k ← keysOf a
  padCiphertext a (π.f 0 k) (π.f 1 (GoMap.keys ids))

/-- `Copy` (mkrlwe/elements.go 84-88) of the embedded ciphertexts. -/
def copyC (x y : ℕ) (π : Sched) : HM C Unit := do
  let a ← ctOf x
  let b ← ctOf y
  let k ← keysOf b
  copyInto a b (π.f 0 k)

/-- `PartialDecrypt` (mkckks/decryptor.go 27-29). -/
def partialDecryptC (x : ℕ) (sk : SecretKey C) : HM C Unit := do
  let a ← ctOf x
  partialDecrypt a sk

/-- Everything the pointers `xs` lead to. -/
def look (xs : List ℕ) : HM C (List (CCt C)) := fun h =>
  .ok (xs.map fun x => ⟨⟨(h.ct (h.cct x).1).mapVals fun _ p => h.poly p⟩, (h.cct x).2⟩, h)

end Mem

/-- The calls of a client; `i`, `j` number its ciphertexts, `k` its hoisted forms, `r` its
relinearisation key sets. -/
inductive Cmd (C : Ctx) (Msg : Type) where
  /-- `NewCiphertext` -/
  | newCt (level : ℕ) (ids : IDSet) (scale : ℚ)
  /-- `CopyNew` -/
  | copyNew (i : ℕ)
  /-- `SetScalingFactor` -/
  | setScale (i : ℕ) (s : ℚ)
  /-- `PadCiphertext` -/
  | pad (i : ℕ) (ids : IDSet)
  /-- `Copy`, from `j` into `i` -/
  | copy (i j : ℕ)
  /-- `AddNew` -/
  | add (i j : ℕ)
  /-- `SubNew` -/
  | sub (i j : ℕ)
  /-- `MulRelinNew` -/
  | mul (i j r : ℕ)
  /-- `MulPtxtNew` -/
  | mulPtxt (i : ℕ) (pt : RQ C) (ptScale : ℚ)
  /-- `RotateNew` -/
  | rotate (i : ℕ) (rotidx : ℤ) (rkSet : RotationKeySet (RotKey C))
  /-- `ConjugateNew` -/
  | conj (i : ℕ) (ckSet : KeySet (ConjKey C))
  /-- `RescaleNew` -/
  | rescaleNew (i : ℕ) (threshold : ℚ)
  /-- `DropLevelNew` -/
  | dropNew (i levels : ℕ)
  /-- `DropLevel` -/
  | drop (i levels : ℕ)
  /-- `MultByConst`, from `i` into `j` -/
  | mulConst (i : ℕ) (c : Const) (j : ℕ)
  /-- `Rescale`, from `i` into `j` -/
  | rescale (i : ℕ) (minScale : ℚ) (j : ℕ)
  /-- `EncryptMsgNew` -/
  | encNew (rnd : EncRand C) (msg : Msg) (pk : PublicKey C)
  /-- `EncryptMsgNewExpand` -/
  | encExpand (rnd : EncRand C) (msg : Msg) (pk : PublicKey C) (ids : IDSet)
  /-- `EncryptMsg` into `j` -/
  | encInto (rnd : EncRand C) (msg : Msg) (pk : PublicKey C) (j : ℕ)
  /-- `EncryptPtxt` into `j` -/
  | encPtxt (rnd : EncRand C) (pt : RQ C) (ptScale : ℚ) (pk : PublicKey C) (j : ℕ)
  /-- `Decrypt` -/
  | decrypt (i : ℕ) (skSet : KeySet (SecretKey C))
  /-- `PartialDecrypt` -/
  | partialDec (i : ℕ) (sk : SecretKey C)
  /-- `HoistedForm` -/
  | hoist (i : ℕ)
  /-- `RotateHoistedNew` -/
  | rotHoisted (i : ℕ) (rotidx : ℤ) (k : ℕ) (rkSet : RotationKeySet (RotKey C))
  /-- `MulRelinHoistedNew`; `none` is `nil` -/
  | mulHoisted (i j : ℕ) (k0 k1 : Option ℕ) (r : ℕ)

/-- No public key with the reserved id `"0"` is given to the encryption functions that do not reject
it (see `C57_reserved_id`). -/
def Cmd.Ok : Cmd C Msg → Prop
  | .encExpand _ _ pk _ | .encInto _ _ pk _ | .encPtxt _ _ _ pk _ => pk.id ≠ "0"
  | _ => True

/-- What a call returns besides ciphertexts. -/
inductive Out (Msg : Type) where
  | err (e : Option String)
  | msg (m : Msg)

/-- The state of a client: `V` is what stands for a ciphertext, `E` for an evaluator. -/
structure Client (C : Ctx) (Msg E V : Type) where
  ev : E
  enc : CEnc C
  dec : CDec C
  rlks : List (RlkSet C)
  objs : List V
  hs : List (HoistedCt C)
  outs : List (Out Msg)

/-- An optional hoisted form. -/
def optIdx {α : Type} (l : List α) : Option ℕ → Go (Option α)
  | none => .ok none
  | some k => do
    let a ← idx l k
    return some a

/-- A client with pointers. -/
abbrev PClient (C : Ctx) (Msg : Type) := Client C Msg (HEv C) ℕ

/-- A client with values. -/
abbrev VClient (C : Ctx) (Msg : Type) := Client C Msg (Ev C) (CCt C)

section

variable (E : Encoder C Msg) (prm : CPar C)

open Mem in
/-- A call on the memory. -/
def pStep (c : Cmd C Msg) (π : Sched) (s : PClient C Msg) : HM C (PClient C Msg) :=
  match c with
  | .newCt level ids scale => do
    let y ← newCCiphertext level (π.f 0 (GoMap.keys ids)) scale
    return { s with objs := s.objs ++ [y] }
  | .copyNew i => do
    let x ← lift (idx s.objs i)
    let a ← ctOf x
    let k ← keysOf a
    let y ← copyNewC x (π.f 0 k)
    return { s with objs := s.objs ++ [y] }
  | .setScale i sc => do
    let x ← lift (idx s.objs i)
    setScale x sc
    return s
  | .pad i ids => do
    let x ← lift (idx s.objs i)
    padC x ids π
    return s
  | .copy i j => do
    let x ← lift (idx s.objs i)
    let y ← lift (idx s.objs j)
    copyC x y π
    return s
  | .add i j => do
    let x ← lift (idx s.objs i)
    let y ← lift (idx s.objs j)
    let (ev, z) ← AddNew prm s.ev x y π
    return { s with ev := ev, objs := s.objs ++ [z] }
  | .sub i j => do
    let x ← lift (idx s.objs i)
    let y ← lift (idx s.objs j)
    let (ev, z) ← SubNew prm s.ev x y π
    return { s with ev := ev, objs := s.objs ++ [z] }
  | .mul i j r => do
    let x ← lift (idx s.objs i)
    let y ← lift (idx s.objs j)
    let rlk ← lift (idx s.rlks r)
    let (ev, rlk, z) ← MulRelinNew prm s.ev x y rlk π
    return { s with ev := ev, rlks := s.rlks.set r rlk, objs := s.objs ++ [z] }
  | .mulPtxt i pt ptScale => do
    let x ← lift (idx s.objs i)
    let (ev, z) ← MulPtxtNew prm s.ev x pt ptScale π
    return { s with ev := ev, objs := s.objs ++ [z] }
  | .rotate i rotidx rkSet => do
    let x ← lift (idx s.objs i)
    let (ev, z) ← RotateNew prm s.ev x rotidx rkSet π
    return { s with ev := ev, objs := s.objs ++ [z] }
  | .conj i ckSet => do
    let x ← lift (idx s.objs i)
    let (ev, z) ← ConjugateNew prm s.ev x ckSet π
    return { s with ev := ev, objs := s.objs ++ [z] }
  | .rescaleNew i threshold => do
    let x ← lift (idx s.objs i)
    let (e, ev, z) ← RescaleNew prm s.ev x threshold π
    return { s with ev := ev, objs := s.objs ++ [z], outs := s.outs ++ [.err e] }
  | .dropNew i levels => do
    let x ← lift (idx s.objs i)
    let z ← dropLevelNew x levels π
    return { s with objs := s.objs ++ [z] }
  | .drop i levels => do
    let x ← lift (idx s.objs i)
    dropLevelC x levels π
    return s
  | .mulConst i c j => do
    let x ← lift (idx s.objs i)
    let y ← lift (idx s.objs j)
    multByConst prm x c y π
    return s
  | .rescale i minScale j => do
    let x ← lift (idx s.objs i)
    let y ← lift (idx s.objs j)
    let e ← Rescale prm s.ev x minScale y π
    return { s with outs := s.outs ++ [.err e] }
  | .encNew rnd msg pk => do
    let (enc, z) ← EncryptMsgNew E prm s.enc rnd msg pk
    return { s with enc := enc, objs := s.objs ++ [z] }
  | .encExpand rnd msg pk ids => do
    let (enc, z) ← EncryptMsgNewExpand E prm s.enc rnd msg pk (π.f 0 (GoMap.keys ids))
    return { s with enc := enc, objs := s.objs ++ [z] }
  | .encInto rnd msg pk j => do
    let y ← lift (idx s.objs j)
    let enc ← EncryptMsg E s.enc rnd msg pk y
    return { s with enc := enc }
  | .encPtxt rnd pt ptScale pk j => do
    let y ← lift (idx s.objs j)
    let enc ← EncryptPtxt s.enc rnd pt ptScale pk y
    return { s with enc := enc }
  | .decrypt i skSet => do
    let x ← lift (idx s.objs i)
    let (dec, m) ← Mem.Decrypt E s.dec x skSet π
    return { s with dec := dec, outs := s.outs ++ [.msg m] }
  | .partialDec i sk => do
    let x ← lift (idx s.objs i)
    partialDecryptC x sk
    return s
  | .hoist i => do
    let x ← lift (idx s.objs i)
    let (ev, H) ← HoistedForm s.ev x π
    return { s with ev := ev, hs := s.hs ++ [H] }
  | .rotHoisted i rotidx k rkSet => do
    let x ← lift (idx s.objs i)
    let H ← lift (idx s.hs k)
    let (ev, z) ← RotateHoistedNew prm s.ev x rotidx H rkSet π
    return { s with ev := ev, objs := s.objs ++ [z] }
  | .mulHoisted i j k0 k1 r => do
    let x ← lift (idx s.objs i)
    let y ← lift (idx s.objs j)
    let H0 ← lift (optIdx s.hs k0)
    let H1 ← lift (optIdx s.hs k1)
    let rlk ← lift (idx s.rlks r)
    let (ev, z) ← MulRelinHoistedNew prm s.ev x y H0 H1 rlk π
    return { s with ev := ev, objs := s.objs ++ [z] }

/-- The same call on values. -/
def vStep (c : Cmd C Msg) (π : Sched) (s : VClient C Msg) : Go (VClient C Msg) :=
  match c with
  | .newCt level ids scale =>
    .ok { s with objs := s.objs ++ [CCt.new level (π.f 0 (GoMap.keys ids)) scale] }
  | .copyNew i => do
    let x ← idx s.objs i
    let y ← x.CopyNew (π.f 0 x.ct.value.keys)
    return { s with objs := s.objs ++ [y] }
  | .setScale i sc => do
    let x ← idx s.objs i
    return { s with objs := s.objs.set i ⟨x.ct, sc⟩ }
  | .pad i ids => do
    let x ← idx s.objs i
    let c ← x.ct.PadCiphertext (π.f 0 x.ct.value.keys) (π.f 1 (GoMap.keys ids))
    return { s with objs := s.objs.set i ⟨c, x.scale⟩ }
  | .copy i j => do
    let x ← idx s.objs i
    let y ← idx s.objs j
    let c ← x.ct.Copy y.ct (π.f 0 y.ct.value.keys)
    return { s with objs := s.objs.set i ⟨c, x.scale⟩ }
  | .add i j => do
    let x ← idx s.objs i
    let y ← idx s.objs j
    let (ev, z) ← s.ev.AddNew prm x y π
    return { s with ev := ev, objs := s.objs ++ [z] }
  | .sub i j => do
    let x ← idx s.objs i
    let y ← idx s.objs j
    let (ev, z) ← s.ev.SubNew prm x y π
    return { s with ev := ev, objs := s.objs ++ [z] }
  | .mul i j r => do
    let x ← idx s.objs i
    let y ← idx s.objs j
    let rlk ← idx s.rlks r
    let (ev, rlk, z) ← s.ev.MulRelinNew prm x y (decide (i = j)) rlk π
    return { s with ev := ev, rlks := s.rlks.set r rlk, objs := s.objs ++ [z] }
  | .mulPtxt i pt ptScale => do
    let x ← idx s.objs i
    let (ev, z) ← s.ev.MulPtxtNew prm x pt ptScale π
    return { s with ev := ev, objs := s.objs ++ [z] }
  | .rotate i rotidx rkSet => do
    let x ← idx s.objs i
    let (ev, z) ← s.ev.RotateNew prm x rotidx rkSet π
    return { s with ev := ev, objs := s.objs ++ [z] }
  | .conj i ckSet => do
    let x ← idx s.objs i
    let (ev, z) ← s.ev.ConjugateNew prm x ckSet π
    return { s with ev := ev, objs := s.objs ++ [z] }
  | .rescaleNew i threshold => do
    let x ← idx s.objs i
    let (e, ev, z) ← s.ev.RescaleNew prm x threshold π
    return { s with ev := ev, objs := s.objs ++ [z], outs := s.outs ++ [.err e] }
  | .dropNew i levels => do
    let x ← idx s.objs i
    let z ← DropLevelNew x levels π
    return { s with objs := s.objs ++ [z] }
  | .drop i levels => do
    let x ← idx s.objs i
    let c ← dropLevel x.ct levels (π.f 0 x.ct.value.keys)
    return { s with objs := s.objs.set i ⟨c, x.scale⟩ }
  | .mulConst i c j => do
    let x ← idx s.objs i
    let y ← idx s.objs j
    let z ← prm.MultByConst x c y π
    return { s with objs := s.objs.set j z }
  | .rescale i minScale j => do
    let x ← idx s.objs i
    let y ← idx s.objs j
    let (e, ev, z) ← s.ev.Rescale prm x minScale y (decide (i = j)) π
    return { s with ev := ev, objs := s.objs.set j z, outs := s.outs ++ [.err e] }
  | .encNew rnd msg pk => do
    let (enc, z) ← s.enc.EncryptMsgNew E prm rnd msg pk
    return { s with enc := enc, objs := s.objs ++ [z] }
  | .encExpand rnd msg pk ids => do
    let (enc, z) ← s.enc.EncryptMsgNewExpand E prm rnd msg pk (π.f 0 (GoMap.keys ids))
    return { s with enc := enc, objs := s.objs ++ [z] }
  | .encInto rnd msg pk j => do
    let y ← idx s.objs j
    let (enc, z) ← s.enc.EncryptMsg E rnd msg pk y
    return { s with enc := enc, objs := s.objs.set j z }
  | .encPtxt rnd pt ptScale pk j => do
    let y ← idx s.objs j
    let (enc, z) ← s.enc.EncryptPtxt rnd pt ptScale pk y
    return { s with enc := enc, objs := s.objs.set j z }
  | .decrypt i skSet => do
    let x ← idx s.objs i
    let (dec, m) ← s.dec.Decrypt E x skSet π
    return { s with dec := dec, outs := s.outs ++ [.msg m] }
  | .partialDec i sk => do
    let x ← idx s.objs i
    let c ← PartialDecrypt x.ct sk
    return { s with objs := s.objs.set i ⟨c, x.scale⟩ }
  | .hoist i => do
    let x ← idx s.objs i
    let (ev, H) ← s.ev.HoistedForm x π
    return { s with ev := ev, hs := s.hs ++ [H] }
  | .rotHoisted i rotidx k rkSet => do
    let x ← idx s.objs i
    let H ← idx s.hs k
    let (ev, z) ← s.ev.RotateHoistedNew prm x rotidx H rkSet π
    return { s with ev := ev, objs := s.objs ++ [z] }
  | .mulHoisted i j k0 k1 r => do
    let x ← idx s.objs i
    let y ← idx s.objs j
    let H0 ← optIdx s.hs k0
    let H1 ← optIdx s.hs k1
    let rlk ← idx s.rlks r
    let (ev, z) ← s.ev.MulRelinHoistedNew prm x y H0 H1 rlk π
    return { s with ev := ev, objs := s.objs ++ [z] }

/-- A client program: the next call, from the contents of all its ciphertexts, its hoisted forms and
key sets, and the results so far. -/
abbrev Strategy (C : Ctx) (Msg : Type) :=
  ℕ → List (CCt C) → List (HoistedCt C) → List (RlkSet C) → List (Out Msg) → Cmd C Msg

/-- The first `n` calls of the client program on the memory; `sch t` are the map orders of call `t`. -/
def pRun (strat : Strategy C Msg) (sch : ℕ → Sched) : ℕ → PClient C Msg → HM C (PClient C Msg)
  | 0, s => pure s
  | n + 1, s => do
    let s ← pRun strat sch n s
    let vs ← Mem.look s.objs
    pStep E prm (strat n vs s.hs s.rlks s.outs) (sch n) s

/-- The same on values. -/
def vRun (strat : Strategy C Msg) (sch : ℕ → Sched) : ℕ → VClient C Msg → Go (VClient C Msg)
  | 0, s => .ok s
  | n + 1, s => do
    let s ← vRun strat sch n s
    vStep E prm (strat n s.objs s.hs s.rlks s.outs) (sch n) s

/-- `NewEvaluator`, `NewEncryptor`, `NewDecryptor` and the first `n` calls of the client program. -/
def pClient (strat : Strategy C Msg) (sch : ℕ → Sched) (rlks : List (RlkSet C)) (n : ℕ) :
    HM C (PClient C Msg) := do
  let ev ← Mem.newEvaluator
  pRun E prm strat sch n ⟨ev, CEnc.new prm, CDec.new prm, rlks, [], [], []⟩

/-- The same on values. -/
def vClient (strat : Strategy C Msg) (sch : ℕ → Sched) (rlks : List (RlkSet C)) (n : ℕ) :
    Go (VClient C Msg) :=
  vRun E prm strat sch n ⟨Ev.new, CEnc.new prm, CDec.new prm, rlks, [], [], []⟩

end

end MK
