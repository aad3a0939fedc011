import Verif.Evaluator
import Verif.EncDec

/-!
# mkckks/encryptor.go and mkckks/decryptor.go

The encoder is lattigo's `ckks.Encoder` and is not modelled: `encode msg scale` is the integer
polynomial it stores in the plaintext, `decode m scale` is the message it computes from the centred
integer polynomial `m` (lattigo reconstructs the coefficients modulo the product of the moduli of
the plaintext's level and centres them).
-/

noncomputable section

namespace MK

variable {C : Ctx}

/-- lattigo's `ckks.Encoder`. -/
structure Encoder (C : Ctx) (Msg : Type) where
  encode : Msg → ℚ → Nega C.N ℤ
  decode : Nega C.N ℤ → ℚ → Msg

/-- The product of the moduli up to level `l`. -/
def Ctx.qProd (C : Ctx) (l : ℕ) : ℕ := ∏ i ∈ Finset.range (l + 1), C.q i

/-- `m` is the centred polynomial with the residues stored in `p`. -/
def RPoly.IsLift (p : RQ C) (m : Nega C.N ℤ) : Prop :=
  (∀ j, 2 * |m.coeff j| < C.qProd p.level) ∧ ∀ i ≤ p.level, p.val C.nttQ i = Nega.red (C.q i) m

open Classical in
/-- The polynomial that lattigo's decoder reconstructs (`ring.PolyToBigintCenteredLvl` inside
`plaintextToComplex`). -/
def RPoly.lift (p : RQ C) : Nega C.N ℤ := if h : ∃ m, p.IsLift m then h.choose else 0

variable {Msg : Type}

/-- `encoder.Encode(plaintext, msg.Value, logSlots)` for a plaintext with value `p` and the given
scale. -/
def Encoder.Encode (E : Encoder C Msg) (p : RQ C) (scale : ℚ) (msg : Msg) : RQ C :=
  { p.write p.level fun i => (Nega.red (C.q i) (E.encode msg scale)).coeff with isNTT := false }

/-- `encoder.Decode(plaintext, logSlots)` -/
def Encoder.Decode (E : Encoder C Msg) (p : RQ C) (scale : ℚ) : Msg := E.decode p.lift scale

/-- The state of a `mkckks.Encryptor` (mkckks/encryptor.go 7-13): the scratch polynomial of the
`mkrlwe.Encryptor`, `ptxtPool.Value` and `ptxtPool.Scale`. -/
structure CEnc (C : Ctx) where
  poolQ : RQ C
  ptxt : RQ C
  scale : ℚ

/-- `NewEncryptor` (mkckks/encryptor.go 17-28); `ckks.NewPlaintext` allocates an NTT plaintext. -/
def CEnc.new (prm : CPar C) : CEnc C :=
  ⟨RPoly.new C.nQ, { RPoly.new C.nQ with isNTT := true }, prm.scale⟩

/-- The samples of one encryption. -/
structure EncRand (C : Ctx) where
  u : Nega C.N ℤ
  e0 : Nega C.N ℤ
  e1 : Nega C.N ℤ

/-- `EncryptPtxt` (mkckks/encryptor.go 33-36).  The composite literals copy pointers to the same
value maps. -/
def CEnc.EncryptPtxt (enc : CEnc C) (rnd : EncRand C) (pt : RQ C) (ptScale : ℚ) (pk : PublicKey C)
    (ctOut : CCt C) : Go (CEnc C × CCt C) := do
  let (pool, ct) ← Encrypt enc.poolQ rnd.u rnd.e0 rnd.e1 pt pk ctOut.ct
  return ({ enc with poolQ := pool }, ⟨ct, ptScale⟩)

/-- `EncryptMsg` (mkckks/encryptor.go 42-45) -/
def CEnc.EncryptMsg (E : Encoder C Msg) (enc : CEnc C) (rnd : EncRand C) (msg : Msg)
    (pk : PublicKey C) (ctOut : CCt C) : Go (CEnc C × CCt C) := do
  let enc := { enc with ptxt := E.Encode enc.ptxt enc.scale msg }
  enc.EncryptPtxt rnd enc.ptxt enc.scale pk ctOut

/-- `EncryptMsgNew` (mkckks/encryptor.go 51-58) -/
def CEnc.EncryptMsgNew (E : Encoder C Msg) (prm : CPar C) (enc : CEnc C) (rnd : EncRand C)
    (msg : Msg) (pk : PublicKey C) : Go (CEnc C × CCt C) := do
  let idset ← IDSet.new.Add pk.id
  enc.EncryptMsg E rnd msg pk (CCt.new C.lq (GoMap.keys idset) prm.scale)

/-- `EncryptMsgNewExpand` (mkckks/encryptor.go 60-65); `o` is the order in which `NewCiphertext`
visits the id set. -/
def CEnc.EncryptMsgNewExpand (E : Encoder C Msg) (prm : CPar C) (enc : CEnc C) (rnd : EncRand C)
    (msg : Msg) (pk : PublicKey C) (o : List String) : Go (CEnc C × CCt C) :=
  enc.EncryptMsg E rnd msg pk (CCt.new C.lq o prm.scale)

/-- `EncodeMsgNew` (mkckks/encryptor.go 67-71).  Returns `Value` and `Scale`. -/
def EncodeMsgNew (E : Encoder C Msg) (prm : CPar C) (msg : Msg) : RQ C × ℚ :=
  (E.Encode { RPoly.new C.nQ with isNTT := true } prm.scale msg, prm.scale)

/-- The state of a `mkckks.Decryptor` (mkckks/decryptor.go 6-11): `ptxtPool.Value` and
`ptxtPool.Scale`. -/
structure CDec (C : Ctx) where
  pool : RQ C
  scale : ℚ

/-- `NewDecryptor` (mkckks/decryptor.go 14-24) -/
def CDec.new (prm : CPar C) : CDec C := ⟨{ RPoly.new C.nQ with isNTT := false }, prm.scale⟩

/-- `Decrypt` (mkckks/decryptor.go 34-43) -/
def CDec.Decrypt (E : Encoder C Msg) (dec : CDec C) (ciphertext : CCt C)
    (skSet : KeySet (SecretKey C)) (π : Sched) : Go (CDec C × Msg) := do
  let ctTmp ← ciphertext.CopyNew (π.f 0 ciphertext.ct.value.keys)
  let pool ← MK.Decrypt ctTmp.ct skSet dec.pool (π.f 1 ctTmp.ct.value.keys)
    (π.f 2 ctTmp.ct.value.keys) (π.f 3 skSet.value.keys)
  let dec : CDec C := ⟨pool, ctTmp.scale⟩
  return (dec, E.Decode dec.pool dec.scale)

end MK
