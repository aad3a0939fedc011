import Verif.KeySwitchSpec

/-!
# Closed form of `MulAndRelin` and `MulAndRelinHoisted`

The closed form `mulOut` mentions neither the scratch memory nor iteration orders; it is used
for the product law, squaring, hoisting and scratch independence.
-/

noncomputable section

namespace MK

open Finset

variable {C : Ctx}

theorem RPoly.write_write {N : ℕ} {m : ℕ → ℕ} (L : ℕ) (f g : (i : ℕ) → Row N (m i))
    (p : RPoly N m) : (p.write L g).write L f = p.write L f := by
  unfold RPoly.write
  congr 1
  funext i
  by_cases h : i ≤ L
  · simp only [h, if_true]
  · simp only [h, if_false]

/-! ## Vectors of ring elements in scratch memory -/

/-- A buffer holds the vector `V` in NTT form. -/
structure NHolds (L : ℕ) (x : SwKey C) (V : KeyVal C) : Prop where
  q : ∀ k < C.beta L, ∀ i ≤ L, (C.nttQ.equiv i).symm ((x k).Q.row i) = V.Q k i
  p : ∀ k < C.beta L, ∀ j < C.nP, (C.nttP.equiv j).symm ((x k).P.row j) = V.P k j

/-- The partial sums `Σ_{id ∈ S} key_id,k · h_id,k`. -/
def keySum (C : Ctx) (S : Finset String) (key : String → KeyVal C)
    (h : String → ℕ → Nega C.N ℤ) : KeyVal C :=
  ⟨fun k i => ∑ id ∈ S, (key id).Q k i * Nega.red (C.q i) (h id k),
   fun k j => ∑ id ∈ S, (key id).P k j * Nega.red (C.p j) (h id k)⟩

theorem zeroAll_holds (L : ℕ) (x : SwKey C) (key : String → KeyVal C)
    (h : String → ℕ → Nega C.N ℤ) : NHolds L (zeroAll L x) (keySum C ∅ key h) := by
  constructor
  · intro k hk i _
    unfold zeroAll
    rw [forLt_update (f := fun _ v => (⟨v.Q.zero, v.P.zero⟩ : QP C)), if_pos hk]
    simp [RPoly.zero, keySum]
  · intro k hk i _
    unfold zeroAll
    rw [forLt_update (f := fun _ v => (⟨v.Q.zero, v.P.zero⟩ : QP C)), if_pos hk]
    simp [RPoly.zero, keySum]

theorem mulAcc_holds (hC : C.Good) {L : ℕ} {x : SwKey C} {S : Finset String}
    {key : String → KeyVal C} {h : String → ℕ → Nega C.N ℤ} (H : NHolds L x (keySum C S key h))
    {id : String} (hid : id ∉ S) {d s : SwKey C} (hd : d.kv = key id) (hs : Holds L s (h id)) :
    NHolds L (mulAcc L d s x) (keySum C (insert id S) key h) := by
  constructor
  · intro k hk i hi
    unfold mulAcc
    rw [forLt_update, if_pos hk]
    simp only [QP.mulMontAddLvl, RPoly.mulMontAddLvl]
    rw [RPoly.write_row_of_le _ _ hi, hs.q k hk i hi]
    have : (fun j => (x k).Q.row i j + RPoly.mred ((d k).Q.row i j)
        (C.nttQ.equiv i (Nega.red (C.q i) (h id k)) j)) = (x k).Q.row i +
        fun j => RPoly.mred ((d k).Q.row i j) (C.nttQ.equiv i (Nega.red (C.q i) (h id k)) j) :=
      rfl
    rw [this, map_add, symm_mred, H.q k hk i hi]
    simp only [keySum]
    rw [Finset.sum_insert hid, add_comm, ← hd]
    rfl
  · intro k hk i hj
    have hi := hC.lp_lt.mpr hj
    unfold mulAcc
    rw [forLt_update, if_pos hk]
    simp only [QP.mulMontAddLvl, RPoly.mulMontAddLvl]
    rw [RPoly.write_row_of_le _ _ hi, hs.p k hk i hj]
    have : (fun j => (x k).P.row i j + RPoly.mred ((d k).P.row i j)
        (C.nttP.equiv i (Nega.red (C.p i) (h id k)) j)) = (x k).P.row i +
        fun j => RPoly.mred ((d k).P.row i j) (C.nttP.equiv i (Nega.red (C.p i) (h id k)) j) :=
      rfl
    rw [this, map_add, symm_mred, H.p k hk i hj]
    simp only [keySum]
    rw [Finset.sum_insert hid, add_comm, ← hd]
    rfl

theorem mformAll_agree (hC : C.Good) {L : ℕ} {x : SwKey C} {V : KeyVal C} (H : NHolds L x V) :
    (SwKey.kv (mformAll L x)).Agree L V := by
  constructor
  · intro k hk i hi
    unfold mformAll
    simp only [SwKey.kv]
    rw [forLt_update (f := fun _ v => QP.mformLvl L C.lp v v), if_pos hk]
    simp only [QP.mformLvl, RPoly.mformLvl]
    rw [RPoly.write_row_of_le _ _ hi, Ntt.dec_mform _ _ (hC.oddQ i), H.q k hk i hi]
  · intro k hk i hj
    have hi := hC.lp_lt.mpr hj
    unfold mformAll
    simp only [SwKey.kv]
    rw [forLt_update (f := fun _ v => QP.mformLvl L C.lp v v), if_pos hk]
    simp only [QP.mformLvl, RPoly.mformLvl]
    rw [RPoly.write_row_of_le _ _ hi, Ntt.dec_mform _ _ (hC.oddP i), H.p k hk i hj]

/-! ## Where digits come from -/

/-- The digits used for party `id` are `h`: they are either computed from the ciphertext or
read from a hoisted form that holds them. -/
def DigSrc (L : ℕ) (op : Ct C) (hoisted : Option (HoistedCt C)) (h : ℕ → Nega C.N ℤ)
    (id : String) : Prop :=
  match hoisted with
  | none => ∃ p, op.value.get? id = some p ∧ h = digit C L (p.val C.nttQ)
  | some H => ∃ s, H.get? id = some s ∧ Holds L s h

theorem getDigits_spec (hC : C.Good) (ks : KS C) {L : ℕ} {op : Ct C}
    {hoisted : Option (HoistedCt C)} {h : ℕ → Nega C.N ℤ} {id : String}
    (H : DigSrc L op hoisted h id) :
    ∃ inv s3 s, ks.getDigits L op hoisted id =
      .ok ({ ks with poolInv := inv, swk3 := s3 }, s) ∧ Holds L s h := by
  unfold KS.getDigits
  cases hoisted with
  | none =>
    obtain ⟨p, hp, rfl⟩ := H
    obtain ⟨inv, h1, h2⟩ := decompose_spec hC ks L p ks.swk3
    refine ⟨inv, (ks.Decompose L p ks.swk3).2, _, ?_, h2⟩
    simp only [GoMap.deref_of_get? hp, Go.ok_bind, Go.pure_eq, h1]
  | some Hc =>
    obtain ⟨s, hs, hh⟩ := H
    refine ⟨ks.poolInv, ks.swk3, s, ?_, hh⟩
    simp only [GoMap.deref_of_get? hs, Go.ok_bind, Go.pure_eq]

theorem extComp_spec (hC : C.Good) (ks : KS C) {L : ℕ} {op : Ct C}
    {hoisted : Option (HoistedCt C)} {h : ℕ → Nega C.N ℤ} {id : String}
    (H : DigSrc L op hoisted h id) (key : SwKey C) :
    ∃ inv p0 p1, ks.extComp L op hoisted id key =
      .ok { ks with
        poolInv := inv, pool0 := p0, pool1 := p1
        pq0 := ks.pq0.write L fun i => (ext C L h key.kv i).coeff } := by
  unfold KS.extComp
  cases hoisted with
  | none =>
    obtain ⟨p, hp, rfl⟩ := H
    obtain ⟨inv, p0, p1, h1⟩ := externalProduct_spec hC ks L p key ks.pq0
    refine ⟨inv, p0, p1, ?_⟩
    simp only [GoMap.deref_of_get? hp, Go.ok_bind, Go.pure_eq, h1]
  | some Hc =>
    obtain ⟨s, hs, hh⟩ := H
    obtain ⟨p1, h1⟩ := externalProductHoisted_spec hC ks hh key ks.pq0
    refine ⟨ks.poolInv, ks.pool0, p1, ?_⟩
    simp only [GoMap.deref_of_get? hs, Go.ok_bind, Go.pure_eq, h1]

/-! ## Contents of ciphertexts -/

/-- The ciphertext has exactly the components `K`, in coefficient form with `L+1` rows, and
the rows are given by `F`. -/
structure CtIs (out : Ct C) (L : ℕ) (K : Finset String)
    (F : String → (i : ℕ) → Row C.N (C.q i)) : Prop where
  wf : out.value.WF
  mem : ∀ id, id ∈ out.value.keys ↔ id ∈ K
  len : ∀ id p, out.value.get? id = some p → p.len = L + 1
  ntt : ∀ id p, out.value.get? id = some p → p.isNTT = false
  rows : ∀ id p, out.value.get? id = some p → ∀ i ≤ L, p.row i = F id i

theorem CtIs.get {out : Ct C} {L : ℕ} {K : Finset String}
    {F : String → (i : ℕ) → Row C.N (C.q i)} (H : CtIs out L K F) {id : String} (h : id ∈ K) :
    ∃ p, out.value.get? id = some p ∧ p.len = L + 1 ∧ p.isNTT = false ∧
      ∀ i ≤ L, p.row i = F id i := by
  obtain ⟨p, hp⟩ := GoMap.exists_get?_of_mem ((H.mem id).mpr h)
  exact ⟨p, hp, H.len _ _ hp, H.ntt _ _ hp, H.rows _ _ hp⟩

theorem CtIs.set {out : Ct C} {L : ℕ} {K : Finset String}
    {F F' : String → (i : ℕ) → Row C.N (C.q i)} (H : CtIs out L K F) {id : String}
    (hid : id ∈ K) {p : RQ C} (hl : p.len = L + 1) (hn : p.isNTT = false)
    (hr : ∀ i ≤ L, p.row i = F' id i)
    (ho : ∀ id' ∈ K, id' ≠ id → ∀ i ≤ L, F id' i = F' id' i) :
    CtIs ⟨out.value.set id p⟩ L K F' := by
  refine ⟨H.wf.set _ _, ?_, ?_, ?_, ?_⟩
  · intro id'
    rw [GoMap.mem_keys_set, H.mem]
    constructor
    · rintro (rfl | h)
      · exact hid
      · exact h
    · exact Or.inr
  all_goals
    intro id' p' hp'
    by_cases he : id' = id
    · subst he
      rw [GoMap.get?_set_self] at hp'
      cases hp'
      assumption
    · rw [GoMap.get?_set_of_ne _ _ he] at hp'
      first
        | exact H.len _ _ hp'
        | exact H.ntt _ _ hp'
        | exact fun i hi => (H.rows _ _ hp' i hi).trans
            (ho id' ((H.mem id').mp (GoMap.mem_keys_of_get? hp')) he i hi)

theorem CtIs.congr {out : Ct C} {L : ℕ} {K : Finset String}
    {F F' : String → (i : ℕ) → Row C.N (C.q i)} (H : CtIs out L K F)
    (h : ∀ id ∈ K, ∀ i ≤ L, F id i = F' id i) : CtIs out L K F' :=
  ⟨H.wf, H.mem, H.len, H.ntt, fun id p hp i hi => (H.rows id p hp i hi).trans
    (h id ((H.mem id).mp (GoMap.mem_keys_of_get? hp)) i hi)⟩

/-- The rows a ciphertext holds, `0` for absent components. -/
def Ct.rowsOf (ct : Ct C) (id : String) (i : ℕ) : Row C.N (C.q i) :=
  match ct.value.get? id with
  | some p => p.row i
  | none => 0

theorem Ct.Wf.ctIs {ct : Ct C} {L : ℕ} (h : ct.Wf L false) :
    CtIs ct L ct.value.keys.toFinset ct.rowsOf :=
  ⟨h.wf, by simp, h.len, h.ntt, fun id p hp i _ => by unfold Ct.rowsOf; rw [hp]⟩

theorem CtIs.comp {out : Ct C} {L : ℕ} {K : Finset String}
    {F : String → (i : ℕ) → Row C.N (C.q i)} (H : CtIs out L K F) {id : String} (h : id ∈ K)
    {i : ℕ} (hi : i ≤ L) : out.comp id i = ⟨F id i⟩ := by
  obtain ⟨p, hp, _, hn, hr⟩ := H.get h
  rw [Ct.comp_of_get? hp, RPoly.val_false _ hn, hr i hi]

theorem CtIs.toWf {out : Ct C} {L : ℕ} {K : Finset String}
    {F : String → (i : ℕ) → Row C.N (C.q i)} (H : CtIs out L K F) (h0 : "0" ∈ K) :
    out.Wf L false := ⟨H.wf, (H.mem _).mpr h0, H.len, H.ntt⟩

/-- Two ciphertexts are the same Go value: same components, and for each the same number of
rows, flag and contents. -/
structure Ct.Same (a b : Ct C) : Prop where
  none_iff : ∀ id, a.value.get? id = none ↔ b.value.get? id = none
  poly : ∀ id p p', a.value.get? id = some p → b.value.get? id = some p' →
    p.len = p'.len ∧ p.isNTT = p'.isNTT ∧ ∀ i < p.len, p.row i = p'.row i

theorem CtIs.same {a b : Ct C} {L : ℕ} {K : Finset String}
    {F : String → (i : ℕ) → Row C.N (C.q i)} (ha : CtIs a L K F) (hb : CtIs b L K F) :
    a.Same b := by
  constructor
  · intro id
    rw [GoMap.get?_eq_none_iff, GoMap.get?_eq_none_iff, ha.mem, hb.mem]
  · intro id p p' hp hp'
    refine ⟨by rw [ha.len _ _ hp, hb.len _ _ hp'], by rw [ha.ntt _ _ hp, hb.ntt _ _ hp'], ?_⟩
    intro i hi
    rw [ha.len _ _ hp] at hi
    rw [ha.rows _ _ hp i (by omega), hb.rows _ _ hp' i (by omega)]

/-! ## Orders -/

/-- A visiting order of `ct.IDSet().Value`. -/
def Ct.PartyOrder (ct : Ct C) (o : List String) : Prop :=
  o.Nodup ∧ ∀ id, id ∈ o ↔ id ∈ ct.parties

theorem Ct.PartyOrder.toFinset {ct : Ct C} {o : List String} (h : ct.PartyOrder o) :
    o.toFinset = ct.parties := by
  ext id; rw [List.mem_toFinset, h.2]

/-- All loops of a multiplication visit what they range over. -/
structure MulOrd.Ok (o : MulOrd) (op0 op1 ctOut : Ct C) : Prop where
  i0 : op0.value.IsOrder o.i0
  i1 : op1.value.IsOrder o.i1
  x : op0.PartyOrder o.x
  y : op1.PartyOrder o.y
  t0 : op0.PartyOrder o.t0
  t1 : op1.PartyOrder o.t1
  inv : ctOut.value.IsOrder o.inv
  e1 : op1.PartyOrder o.e1
  e0 : op0.PartyOrder o.e0

/-! ## The closed form -/

/-- The inputs of a multiplication as ring elements. -/
structure MulIn (C : Ctx) where
  L : ℕ
  S0 : Finset String
  S1 : Finset String
  c0 : String → (i : ℕ) → Nega C.N (ZMod (C.q i))
  c1 : String → (i : ℕ) → Nega C.N (ZMod (C.q i))
  h0 : String → ℕ → Nega C.N ℤ
  h1 : String → ℕ → Nega C.N ℤ
  d : String → KeyVal C
  b : String → KeyVal C
  v : String → KeyVal C
  u : KeyVal C

namespace MulIn

variable (I : MulIn C)

/-- `x = Σ_id d_id ⊙ h(op0_id)` -/
def X : KeyVal C := keySum C I.S0 I.d I.h0
/-- `y = Σ_id b_id ⊙ h(op1_id)` -/
def Y : KeyVal C := keySum C I.S1 I.b I.h1
/-- `Ext(op0_id, y)` -/
def yhat (id : String) : (i : ℕ) → Nega C.N (ZMod (C.q i)) := ext C I.L (I.h0 id) I.Y
/-- Digits of `Ext(op0_id, y)`. -/
def hy (id : String) : ℕ → Nega C.N ℤ := digit C I.L (I.yhat id)

/-- The tensor product part. -/
def tensor (id : String) (i : ℕ) : Nega C.N (ZMod (C.q i)) :=
  if id = "0" then I.c0 "0" i * I.c1 "0" i
  else (if id ∈ I.S0 then I.c1 "0" i * I.c0 id i else 0) +
    (if id ∈ I.S1 then I.c0 "0" i * I.c1 id i else 0)

/-- The tensor product and the contributions of the parties in `A` (first key-switching loop)
and `B` (second). -/
def out (A B : Finset String) (id : String) (i : ℕ) : Nega C.N (ZMod (C.q i)) :=
  I.tensor id i + (if id ∈ A then ext C I.L (I.h1 id) I.X i else 0) +
    if id = "0" then ∑ j ∈ B, ext C I.L (I.hy j) (I.v j) i
    else if id ∈ B then ext C I.L (I.hy id) I.u i else 0

/-- The ciphertext a multiplication returns. -/
def res : String → (i : ℕ) → Nega C.N (ZMod (C.q i)) := I.out I.S1 I.S0

end MulIn

/-! ## The loops -/

theorem xLoop_spec (hC : C.Good) {η : Type _} {L : ℕ} {op0 : Ct C}
    {h0 : Option (HoistedCt C)} {rlk : RelinKeySet (RelinKey C) η} {S : Finset String}
    {h : String → ℕ → Nega C.N ℤ} {rk : String → RelinKey C}
    (hsrc : ∀ id ∈ S, DigSrc L op0 h0 (h id) id)
    (hrk : ∀ id ∈ S, rlk.value.get? id = some (rk id)) {o : List String} (ho : o.Nodup)
    (hoS : o.toFinset = S) (ks : KS C)
    (hz : NHolds L ks.swk1 (keySum C ∅ (fun id => (rk id).d.kv) h)) :
    ∃ inv s1 s3, forEach o (KS.xStep L op0 h0 rlk) ks =
      .ok { ks with poolInv := inv, swk1 := s1, swk3 := s3 } ∧
      NHolds L s1 (keySum C S (fun id => (rk id).d.kv) h) := by
  obtain ⟨s', h1, inv, s1, s3, rfl, h2⟩ := forEach_inv o ho (KS.xStep L op0 h0 rlk)
    (fun done ks' => ∃ inv s1 s3, ks' = { ks with poolInv := inv, swk1 := s1, swk3 := s3 } ∧
      NHolds L s1 (keySum C done (fun id => (rk id).d.kv) h)) ks
    ⟨ks.poolInv, ks.swk1, ks.swk3, rfl, hz⟩ (by
      rintro done a s hnd ha ⟨inv, s1, s3, rfl, hI⟩
      have haS : a ∈ S := by rw [← hoS]; simpa using ha
      obtain ⟨inv', s3', sd, hg, hh⟩ := getDigits_spec hC
        { ks with poolInv := inv, swk1 := s1, swk3 := s3 } (hsrc a haS)
      refine ⟨_, ?_, inv', mulAcc L (rk a).d sd s1, s3', rfl, mulAcc_holds hC hI hnd rfl hh⟩
      unfold KS.xStep
      simp only [hg, GoMap.deref_of_get? (hrk a haS), Go.ok_bind, Go.pure_eq])
  exact ⟨inv, s1, s3, h1, by rw [← hoS]; exact h2⟩

theorem yLoop_spec (hC : C.Good) {η : Type _} {L : ℕ} {op0 : Ct C}
    {h0 : Option (HoistedCt C)} {rlk : RelinKeySet (RelinKey C) η} {S : Finset String}
    {h : String → ℕ → Nega C.N ℤ} {rk : String → RelinKey C}
    (hsrc : ∀ id ∈ S, DigSrc L op0 h0 (h id) id)
    (hrk : ∀ id ∈ S, rlk.value.get? id = some (rk id)) {o : List String} (ho : o.Nodup)
    (hoS : o.toFinset = S) (ks : KS C)
    (hz : NHolds L ks.swk2 (keySum C ∅ (fun id => (rk id).b.kv) h)) :
    ∃ inv s2 s3, forEach o (KS.yStep L op0 h0 rlk) ks =
      .ok { ks with poolInv := inv, swk2 := s2, swk3 := s3 } ∧
      NHolds L s2 (keySum C S (fun id => (rk id).b.kv) h) := by
  obtain ⟨s', h1, inv, s1, s3, rfl, h2⟩ := forEach_inv o ho (KS.yStep L op0 h0 rlk)
    (fun done ks' => ∃ inv s1 s3, ks' = { ks with poolInv := inv, swk2 := s1, swk3 := s3 } ∧
      NHolds L s1 (keySum C done (fun id => (rk id).b.kv) h)) ks
    ⟨ks.poolInv, ks.swk2, ks.swk3, rfl, hz⟩ (by
      rintro done a s hnd ha ⟨inv, s1, s3, rfl, hI⟩
      have haS : a ∈ S := by rw [← hoS]; simpa using ha
      obtain ⟨inv', s3', sd, hg, hh⟩ := getDigits_spec hC
        { ks with poolInv := inv, swk2 := s1, swk3 := s3 } (hsrc a haS)
      refine ⟨_, ?_, inv', mulAcc L (rk a).b sd s1, s3', rfl, mulAcc_holds hC hI hnd rfl hh⟩
      unfold KS.yStep
      simp only [hg, GoMap.deref_of_get? (hrk a haS), Go.ok_bind, Go.pure_eq])
  exact ⟨inv, s1, s3, h1, by rw [← hoS]; exact h2⟩

theorem mred_mform_row (hC : C.Good) (i : ℕ) (x y : Nega C.N (ZMod (C.q i))) :
    (fun j => RPoly.mred ((montR : ZMod (C.q i)) * C.nttQ.equiv i x j) (C.nttQ.equiv i y j)) =
      C.nttQ.equiv i (x * y) := by
  funext j
  rw [RPoly.mred_mont (hC.oddQ i), map_mul, Pi.mul_apply]

/-- A polynomial buffer holds `x` in NTT and Montgomery form up to level `L`. -/
def MHolds (L : ℕ) (p : RQ C) (x : (i : ℕ) → Nega C.N (ZMod (C.q i))) : Prop :=
  ∀ i ≤ L, p.row i = fun j => (montR : ZMod (C.q i)) * C.nttQ.equiv i (x i) j

theorem t0Loop_spec (hC : C.Good) {L : ℕ} {op0 : Ct C} {K S : Finset String}
    {c : String → (i : ℕ) → Nega C.N (ZMod (C.q i))} {x : (i : ℕ) → Nega C.N (ZMod (C.q i))}
    (hc : ∀ id ∈ S, ∃ p, op0.value.get? id = some p ∧ ∀ i ≤ L, ⟨p.row i⟩ = c id i)
    (hSK : S ⊆ K) {o : List String} (ho : o.Nodup) (hoS : o.toFinset = S) (ks : KS C)
    (hx : MHolds L ks.pq1 x) (ct : Ct C) {F : String → (i : ℕ) → Row C.N (C.q i)}
    (hF : CtIs ct L K F) :
    ∃ p2 ct', forEach o (KS.t0Step L op0) (ks, ct) = .ok ({ ks with pq2 := p2 }, ct') ∧
      CtIs ct' L K (fun id i => if id ∈ S then C.nttQ.equiv i (x i * c id i) else F id i) := by
  obtain ⟨s', h1, p2, ct', rfl, h2⟩ := forEach_inv o ho (KS.t0Step L op0)
    (fun done s => ∃ p2 ct', s = ({ ks with pq2 := p2 }, ct') ∧
      CtIs ct' L K (fun id i => if id ∈ done then C.nttQ.equiv i (x i * c id i) else F id i))
    (ks, ct) ⟨ks.pq2, ct, rfl, by simpa using hF⟩ (by
      rintro done a s hnd ha ⟨p2, ct', rfl, hI⟩
      have haS : a ∈ S := by rw [← hoS]; simpa using ha
      obtain ⟨p, hp, hpr⟩ := hc a haS
      obtain ⟨po, hpo, hlen, hntt, _⟩ := hI.get (hSK haS)
      refine ⟨_, ?_, p.nttLvl C.nttQ L p2,
        ⟨ct'.value.set a (RPoly.mulMontLvl L ks.pq1 (p.nttLvl C.nttQ L p2) po)⟩, rfl, ?_⟩
      · unfold KS.t0Step
        simp only [GoMap.deref_of_get? hp, GoMap.deref_of_get? hpo, Go.ok_bind, Go.pure_eq]
      · refine hI.set (hSK haS) hlen hntt (fun i hi => ?_) fun id' _ hne i _ => ?_
        · rw [if_pos (mem_insert_self _ _)]
          show (RPoly.mulMontLvl L ks.pq1 (p.nttLvl C.nttQ L p2) po).row i = _
          simp only [RPoly.mulMontLvl, RPoly.nttLvl]
          rw [RPoly.write_row_of_le _ _ hi, RPoly.write_row_of_le _ _ hi, hx i hi, hpr i hi,
            mred_mform_row hC]
        · simp only [mem_insert, hne, false_or])
  exact ⟨p2, ct', h1, by rw [← hoS]; exact h2⟩

theorem t1Loop_spec (hC : C.Good) {L : ℕ} {op1 : Ct C} {K S : Finset String} {S0 : IDSet}
    {c : String → (i : ℕ) → Nega C.N (ZMod (C.q i))} {x : (i : ℕ) → Nega C.N (ZMod (C.q i))}
    (hc : ∀ id ∈ S, ∃ p, op1.value.get? id = some p ∧ ∀ i ≤ L, ⟨p.row i⟩ = c id i)
    (hSK : S ⊆ K) {o : List String} (ho : o.Nodup) (hoS : o.toFinset = S) (ks : KS C)
    (hx : MHolds L ks.pq0 x) (ct : Ct C) {F : String → (i : ℕ) → Row C.N (C.q i)}
    (hF : CtIs ct L K F) :
    ∃ p2 ct', forEach o (KS.t1Step L op1 S0) (ks, ct) = .ok ({ ks with pq2 := p2 }, ct') ∧
      CtIs ct' L K (fun id i => if id ∈ S then
        (if S0.Has id = true then F id i else 0) + C.nttQ.equiv i (x i * c id i)
        else F id i) := by
  obtain ⟨s', h1, p2, ct', rfl, h2⟩ := forEach_inv o ho (KS.t1Step L op1 S0)
    (fun done s => ∃ p2 ct', s = ({ ks with pq2 := p2 }, ct') ∧
      CtIs ct' L K (fun id i => if id ∈ done then
        (if S0.Has id = true then F id i else 0) + C.nttQ.equiv i (x i * c id i)
        else F id i))
    (ks, ct) ⟨ks.pq2, ct, rfl, by simpa using hF⟩ (by
      rintro done a s hnd ha ⟨p2, ct', rfl, hI⟩
      have haS : a ∈ S := by rw [← hoS]; simpa using ha
      obtain ⟨p, hp, hpr⟩ := hc a haS
      obtain ⟨po, hpo, hlen, hntt, hrow⟩ := hI.get (hSK haS)
      have hmul : ∀ i ≤ L, (fun j => RPoly.mred (ks.pq0.row i j)
          ((p.nttLvl C.nttQ L p2).row i j)) = C.nttQ.equiv i (x i * c a i) := by
        intro i hi
        rw [hx i hi]
        simp only [RPoly.nttLvl]
        rw [RPoly.write_row_of_le _ _ hi, hpr i hi, mred_mform_row hC]
      refine ⟨_, ?_, p.nttLvl C.nttQ L p2,
        ⟨ct'.value.set a (if S0.Has a then RPoly.mulMontAddLvl L ks.pq0 (p.nttLvl C.nttQ L p2) po
          else RPoly.mulMontLvl L ks.pq0 (p.nttLvl C.nttQ L p2) po)⟩, rfl, ?_⟩
      · unfold KS.t1Step
        simp only [GoMap.deref_of_get? hp, GoMap.deref_of_get? hpo, Go.ok_bind, Go.pure_eq]
      · refine hI.set (hSK haS) ?_ ?_ (fun i hi => ?_) fun id' _ hne i _ => ?_
        · split
          · exact hlen
          · exact hlen
        · split
          · exact hntt
          · exact hntt
        · rw [if_pos (mem_insert_self _ _)]
          by_cases hs : S0.Has a = true
          · rw [if_pos hs, if_pos hs]
            show (RPoly.mulMontAddLvl L ks.pq0 (p.nttLvl C.nttQ L p2) po).row i = _
            unfold RPoly.mulMontAddLvl
            rw [RPoly.write_row_of_le _ _ hi, ← hmul i hi]
            have h3 := hrow i hi
            rw [if_neg hnd] at h3
            rw [← h3]
            rfl
          · rw [if_neg hs, if_neg hs]
            show (RPoly.mulMontLvl L ks.pq0 (p.nttLvl C.nttQ L p2) po).row i = _
            unfold RPoly.mulMontLvl
            rw [RPoly.write_row_of_le _ _ hi, ← hmul i hi, zero_add]
        · simp only [mem_insert, hne, false_or])
  exact ⟨p2, ct', h1, by rw [← hoS]; exact h2⟩

theorem invLoop_spec {L : ℕ} {K : Finset String} {o : List String} (ho : o.Nodup)
    (hoK : o.toFinset = K) (ct : Ct C) {F : String → (i : ℕ) → Row C.N (C.q i)}
    (hF : CtIs ct L K F) :
    ∃ ct', forEach o (invStep L) ct = .ok ct' ∧
      CtIs ct' L K (fun id i => ((C.nttQ.equiv i).symm (F id i)).coeff) := by
  obtain ⟨s', h1, h2⟩ := forEach_inv o ho (invStep (C := C) L)
    (fun done ct' => CtIs ct' L K (fun id i => if id ∈ done then
      ((C.nttQ.equiv i).symm (F id i)).coeff else F id i)) ct (by simpa using hF) (by
      rintro done a s hnd ha hI
      have haK : a ∈ K := by rw [← hoK]; simpa using ha
      obtain ⟨po, hpo, hlen, hntt, hrow⟩ := hI.get haK
      refine ⟨⟨s.value.set a (po.invNttLvl C.nttQ L po)⟩, ?_, ?_⟩
      rotate_left 1
      · refine hI.set (id := a) (p := po.invNttLvl C.nttQ L po) haK hlen hntt
          (fun i hi => ?_) fun id' _ hne i _ => ?_
        · rw [if_pos (mem_insert_self _ _)]
          unfold RPoly.invNttLvl
          have h3 := hrow i hi
          rw [if_neg hnd] at h3
          rw [RPoly.write_row_of_le _ _ hi, h3]
        · simp only [mem_insert, hne, false_or]
      · unfold invStep
        simp only [GoMap.deref_of_get? hpo, Go.ok_bind, Go.pure_eq])
  refine ⟨s', h1, h2.congr fun id hid i _ => ?_⟩
  rw [if_pos (by rw [hoK]; exact hid)]

theorem e1Loop_spec (hC : C.Good) {L : ℕ} {op1 : Ct C} {h1 : Option (HoistedCt C)}
    {K S : Finset String} {h : String → ℕ → Nega C.N ℤ}
    (hsrc : ∀ id ∈ S, DigSrc L op1 h1 (h id) id) (hSK : S ⊆ K) {o : List String}
    (ho : o.Nodup) (hoS : o.toFinset = S) (ks : KS C) {X : KeyVal C}
    (hX : (SwKey.kv ks.swk1).Agree L X) (ct : Ct C)
    {F : String → (i : ℕ) → Nega C.N (ZMod (C.q i))}
    (hF : CtIs ct L K fun id i => (F id i).coeff) :
    ∃ inv p0 p1 r ct', forEach o (KS.e1Step L op1 h1) (ks, ct) =
      .ok ({ ks with poolInv := inv, pool0 := p0, pool1 := p1, pq0 := ks.pq0.write L r }, ct') ∧
      CtIs ct' L K fun id i => (F id i + if id ∈ S then ext C L (h id) X i else 0).coeff := by
  obtain ⟨s', h1', inv, p0, p1, r, ct', rfl, h2⟩ := forEach_inv o ho (KS.e1Step L op1 h1)
    (fun done s => ∃ inv p0 p1 r ct', s =
      ({ ks with poolInv := inv, pool0 := p0, pool1 := p1, pq0 := ks.pq0.write L r }, ct') ∧
      CtIs ct' L K fun id i => (F id i + if id ∈ done then ext C L (h id) X i else 0).coeff)
    (ks, ct) ⟨ks.poolInv, ks.pool0, ks.pool1, ks.pq0.row, ct, by simp [RPoly.write],
      by simpa using hF⟩ (by
      rintro done a s hnd ha ⟨inv, p0, p1, r, ct', rfl, hI⟩
      have haS : a ∈ S := by rw [← hoS]; simpa using ha
      obtain ⟨po, hpo, hlen, hntt, hrow⟩ := hI.get (hSK haS)
      obtain ⟨inv', p0', p1', he⟩ := extComp_spec hC
        { ks with poolInv := inv, pool0 := p0, pool1 := p1, pq0 := ks.pq0.write L r }
        (hsrc a haS) ks.swk1
      rw [RPoly.write_write] at he
      refine ⟨_, ?_, inv', p0', p1', fun i => (ext C L (h a) ks.swk1.kv i).coeff,
        ⟨ct'.value.set a (RPoly.addLvl L po (ks.pq0.write L fun i =>
          (ext C L (h a) ks.swk1.kv i).coeff) po)⟩, rfl, ?_⟩
      · unfold KS.e1Step
        simp only [he, GoMap.deref_of_get? hpo, Go.ok_bind, Go.pure_eq]
      · refine hI.set (hSK haS) hlen hntt (fun i hi => ?_) fun id' _ hne i _ => ?_
        · rw [if_pos (mem_insert_self _ _)]
          unfold RPoly.addLvl
          rw [RPoly.write_row_of_le _ _ hi, RPoly.write_row_of_le _ _ hi, hrow i hi,
            if_neg hnd, add_zero]
          rw [ext_congr (fun _ _ => rfl) hX hi]
          rfl
        · simp only [mem_insert, hne, false_or])
  exact ⟨inv, p0, p1, r, ct', h1', by rw [← hoS]; exact h2⟩

/-- What the end of the last loop does: it adds the external products of `polyQPool[0]` with
`v` and `u` to components `"0"` and `id`. -/
def LastSpec (last : SwKey C → String → KS C × Ct C → Go (KS C × Ct C)) (L : ℕ)
    (u : SwKey C) : Prop :=
  ∀ (v : SwKey C) (id : String) (ks : KS C) (ct : Ct C) (K : Finset String)
    (F : String → (i : ℕ) → Nega C.N (ZMod (C.q i))), ks.pq0.isNTT = false → "0" ∈ K →
    id ∈ K → id ≠ "0" → CtIs ct L K (fun id i => (F id i).coeff) →
    ∃ inv p0 p1 q1 q2 s3 ct', last v id (ks, ct) =
      .ok ({ ks with
        poolInv := inv, pool0 := p0, pool1 := p1, pq1 := q1, pq2 := q2, swk3 := s3 }, ct') ∧
      CtIs ct' L K fun id' i => (F id' i +
        if id' = "0" then ext C L (digit C L fun i => ⟨ks.pq0.row i⟩) v.kv i
        else if id' = id then ext C L (digit C L fun i => ⟨ks.pq0.row i⟩) u.kv i
        else 0).coeff

/-- The two updates of the last step. -/
theorem last_updates {L : ℕ} {ct : Ct C} {K : Finset String}
    {F : String → (i : ℕ) → Nega C.N (ZMod (C.q i))} {id : String} (h0 : "0" ∈ K)
    (hid : id ∈ K) (hne : id ≠ "0") (H : CtIs ct L K fun id i => (F id i).coeff)
    (A B : (i : ℕ) → Nega C.N (ZMod (C.q i))) {q1 q2 : RQ C}
    (hA : ∀ i ≤ L, q1.row i = (A i).coeff) (hB : ∀ i ≤ L, q2.row i = (B i).coeff) :
    ∃ o0 o, ct.value.get? "0" = some o0 ∧
      (ct.value.set "0" (RPoly.addLvl L o0 q1 o0)).get? id = some o ∧
      CtIs ⟨(ct.value.set "0" (RPoly.addLvl L o0 q1 o0)).set id (RPoly.addLvl L o q2 o)⟩ L K
        fun id' i => (F id' i + if id' = "0" then A i else if id' = id then B i else 0).coeff := by
  obtain ⟨o0, ho0, hl0, hn0, hr0⟩ := H.get h0
  obtain ⟨o, ho, hl, hn, hr⟩ := H.get hid
  refine ⟨o0, o, ho0, ?_, ?_⟩
  · rw [GoMap.get?_set_of_ne _ _ hne]; exact ho
  have H1 : CtIs ⟨ct.value.set "0" (RPoly.addLvl L o0 q1 o0)⟩ L K
      fun id' i => (F id' i + if id' = "0" then A i else 0).coeff := by
    refine H.set h0 hl0 hn0 (fun i hi => ?_) fun id' _ hne' i _ => ?_
    · unfold RPoly.addLvl
      rw [RPoly.write_row_of_le _ _ hi, hr0 i hi, hA i hi, if_pos rfl]
      rfl
    · rw [if_neg hne', add_zero]
  refine H1.set hid hl hn (fun i hi => ?_) fun id' _ hne' i _ => ?_
  · unfold RPoly.addLvl
    rw [RPoly.write_row_of_le _ _ hi, hr i hi, hB i hi, if_neg hne, if_pos rfl]
    rfl
  · rw [if_neg hne']

theorem lastPlain_spec (hC : C.Good) {crs : CRS C} {u : SwKey C} (hu : crs.get? (-1) = some u)
    (L : ℕ) : LastSpec (KS.lastPlain crs L) L u := by
  intro v id ks ct K F hntt h0 hid hne H
  obtain ⟨inv, p0, p1, e1⟩ := externalProduct_spec hC ks L ks.pq0 v ks.pq1
  have hv : ks.pq0.val C.nttQ = fun i => (⟨ks.pq0.row i⟩ : Nega C.N (ZMod (C.q i))) :=
    funext fun i => RPoly.val_false _ hntt i
  rw [hv] at e1
  obtain ⟨inv', p0', p1', e2⟩ := externalProduct_spec hC
    { ks with
      poolInv := inv, pool0 := p0, pool1 := p1
      pq1 := ks.pq1.write L fun i =>
        (ext C L (digit C L fun i => ⟨ks.pq0.row i⟩) v.kv i).coeff } L ks.pq0 u ks.pq2
  rw [hv] at e2
  obtain ⟨o0, o, ho0, ho, HH⟩ := last_updates h0 hid hne H
    (fun i => ext C L (digit C L fun i => ⟨ks.pq0.row i⟩) v.kv i)
    (fun i => ext C L (digit C L fun i => ⟨ks.pq0.row i⟩) u.kv i)
    (q1 := ks.pq1.write L fun i => (ext C L (digit C L fun i => ⟨ks.pq0.row i⟩) v.kv i).coeff)
    (q2 := ks.pq2.write L fun i => (ext C L (digit C L fun i => ⟨ks.pq0.row i⟩) u.kv i).coeff)
    (fun i hi => RPoly.write_row_of_le _ _ hi) (fun i hi => RPoly.write_row_of_le _ _ hi)
  refine ⟨inv', p0', p1', (ks.pq1.write L fun i =>
    (ext C L (digit C L fun i => ⟨ks.pq0.row i⟩) v.kv i).coeff),
    (ks.pq2.write L fun i =>
    (ext C L (digit C L fun i => ⟨ks.pq0.row i⟩) u.kv i).coeff), ks.swk3, _, ?_, HH⟩
  unfold KS.lastPlain
  simp only [e1, e2, GoMap.deref_of_get? ho0, GoMap.deref_of_get? ho, GoMap.deref_of_get? hu,
    Go.ok_bind, Go.pure_eq]

theorem lastHoisted_spec (hC : C.Good) {crs : CRS C} {u : SwKey C}
    (hu : crs.get? (-1) = some u) (L : ℕ) : LastSpec (KS.lastHoisted crs L) L u := by
  intro v id ks ct K F hntt h0 hid hne H
  have hv : ks.pq0.val C.nttQ = fun i => (⟨ks.pq0.row i⟩ : Nega C.N (ZMod (C.q i))) :=
    funext fun i => RPoly.val_false _ hntt i
  obtain ⟨inv, e0, hh⟩ := decompose_spec hC ks L ks.pq0 ks.swk3
  rw [hv] at hh
  set s3 := (ks.Decompose L ks.pq0 ks.swk3).2 with hs3
  obtain ⟨p1, e1⟩ := externalProductHoisted_spec hC
    { ks with poolInv := inv, swk3 := s3 } hh v ks.pq1
  obtain ⟨p1', e2⟩ := externalProductHoisted_spec hC
    { ks with
      poolInv := inv, swk3 := s3, pool1 := p1
      pq1 := ks.pq1.write L fun i =>
        (ext C L (digit C L fun i => ⟨ks.pq0.row i⟩) v.kv i).coeff } hh u ks.pq2
  obtain ⟨o0, o, ho0, ho, HH⟩ := last_updates h0 hid hne H
    (fun i => ext C L (digit C L fun i => ⟨ks.pq0.row i⟩) v.kv i)
    (fun i => ext C L (digit C L fun i => ⟨ks.pq0.row i⟩) u.kv i)
    (q1 := ks.pq1.write L fun i => (ext C L (digit C L fun i => ⟨ks.pq0.row i⟩) v.kv i).coeff)
    (q2 := ks.pq2.write L fun i => (ext C L (digit C L fun i => ⟨ks.pq0.row i⟩) u.kv i).coeff)
    (fun i hi => RPoly.write_row_of_le _ _ hi) (fun i hi => RPoly.write_row_of_le _ _ hi)
  refine ⟨inv, ks.pool0, p1', (ks.pq1.write L fun i =>
    (ext C L (digit C L fun i => ⟨ks.pq0.row i⟩) v.kv i).coeff),
    (ks.pq2.write L fun i =>
    (ext C L (digit C L fun i => ⟨ks.pq0.row i⟩) u.kv i).coeff), s3, _, ?_, HH⟩
  unfold KS.lastHoisted
  simp only [e0, ← hs3, e1, e2, GoMap.deref_of_get? ho0, GoMap.deref_of_get? ho,
    GoMap.deref_of_get? hu, Go.ok_bind, Go.pure_eq]

theorem e0Loop_spec (hC : C.Good) {η : Type _} {L : ℕ} {op0 : Ct C}
    {h0 : Option (HoistedCt C)} {rlk : RelinKeySet (RelinKey C) η}
    {last : SwKey C → String → KS C × Ct C → Go (KS C × Ct C)} {u : SwKey C}
    (hlast : LastSpec last L u) {K S : Finset String} {h : String → ℕ → Nega C.N ℤ}
    {rk : String → RelinKey C} (hsrc : ∀ id ∈ S, DigSrc L op0 h0 (h id) id)
    (hrk : ∀ id ∈ S, rlk.value.get? id = some (rk id)) (h0K : "0" ∈ K) (hSK : S ⊆ K)
    (hS0 : "0" ∉ S) {o : List String} (ho : o.Nodup) (hoS : o.toFinset = S) (ks : KS C)
    (hok : ks.Ok) {Y : KeyVal C} (hY : (SwKey.kv ks.swk2).Agree L Y) (ct : Ct C)
    {F : String → (i : ℕ) → Nega C.N (ZMod (C.q i))}
    (hF : CtIs ct L K fun id i => (F id i).coeff) :
    ∃ ks' ct', forEach o (KS.e0Step last L op0 h0 rlk) (ks, ct) = .ok (ks', ct') ∧ ks'.Ok ∧
      CtIs ct' L K fun id i => (F id i +
        if id = "0" then ∑ j ∈ S, ext C L (digit C L (ext C L (h j) Y)) (rk j).v.kv i
        else if id ∈ S then ext C L (digit C L (ext C L (h id) Y)) u.kv i else 0).coeff := by
  obtain ⟨s', h1', ⟨hks, _⟩, h2⟩ := forEach_inv o ho (KS.e0Step last L op0 h0 rlk)
    (fun done s => (s.1.Ok ∧ s.1.swk2 = ks.swk2) ∧ CtIs s.2 L K fun id i => (F id i +
        if id = "0" then ∑ j ∈ done, ext C L (digit C L (ext C L (h j) Y)) (rk j).v.kv i
        else if id ∈ done then ext C L (digit C L (ext C L (h id) Y)) u.kv i else 0).coeff)
    (ks, ct) ⟨⟨hok, rfl⟩, by simpa using hF⟩ (by
      rintro done a ⟨ks1, ct1⟩ hnd ha ⟨⟨hok1, hsw⟩, hI⟩
      dsimp only at hok1 hsw hI
      have haS : a ∈ S := by rw [← hoS]; simpa using ha
      have ha0 : a ≠ "0" := fun h => hS0 (h ▸ haS)
      obtain ⟨inv', p0', p1', he⟩ := extComp_spec hC ks1 (hsrc a haS) ks1.swk2
      obtain ⟨inv, p0, p1, q1, q2, s3, ct', e1, e2⟩ := hlast (rk a).v a
        { ks1 with
          poolInv := inv', pool0 := p0', pool1 := p1'
          pq0 := ks1.pq0.write L fun i => (ext C L (h a) ks1.swk2.kv i).coeff } ct1 K _
        hok1.ntt h0K (hSK haS) ha0 hI
      refine ⟨({ ks1 with
          poolInv := inv, pool0 := p0, pool1 := p1, pq1 := q1, pq2 := q2, swk3 := s3
          pq0 := ks1.pq0.write L fun i => (ext C L (h a) ks1.swk2.kv i).coeff }, ct'), ?_,
        ⟨⟨hok1.ntt, hok1.len⟩, hsw⟩, e2.congr fun id _ i hi => ?_⟩
      · unfold KS.e0Step
        simp only [GoMap.deref_of_get? (hrk a haS), he, e1, Go.ok_bind]
      · congr 1
        rw [add_assoc]
        congr 1
        have hd : ∀ k < C.beta L, digit C L (fun i => (⟨(ks1.pq0.write L fun i =>
            (ext C L (h a) ks1.swk2.kv i).coeff).row i⟩ : Nega C.N (ZMod (C.q i)))) k =
            digit C L (ext C L (h a) Y) k := fun k hk =>
          digit_congr hC.alpha_pos' hk fun i hi => by
            rw [RPoly.write_row_of_le _ _ hi]
            have := ext_congr (h := h a) (h' := h a) (fun _ _ => rfl) (hsw ▸ hY) hi
            exact this
        have hx : ∀ key : KeyVal C, ext C L (digit C L (fun i => (⟨(ks1.pq0.write L fun i =>
            (ext C L (h a) ks1.swk2.kv i).coeff).row i⟩ : Nega C.N (ZMod (C.q i))))) key i =
            ext C L (digit C L (ext C L (h a) Y)) key i :=
          fun key => ext_congr hd (KeyVal.Agree.refl _ _) hi
        rw [hx, hx]
        by_cases h00 : id = "0"
        · rw [if_pos h00, if_pos h00, if_pos h00, Finset.sum_insert hnd, add_comm]
        · rw [if_neg h00, if_neg h00, if_neg h00]
          by_cases hia : id = a
          · subst hia
            rw [if_neg hnd, if_pos rfl, if_pos (mem_insert_self _ _), zero_add]
          · rw [if_neg hia, add_zero]
            simp only [mem_insert, hia, false_or])
  exact ⟨s'.1, s'.2, h1', hks, by rw [← hoS]; exact h2⟩

/-! ## The whole multiplication -/

/-- Everything a multiplication needs: levels, keys, digits, orders. -/
structure MulPre {η : Type _} (op0 op1 ctOut : Ct C) (h0 h1 : Option (HoistedCt C))
    (rlk : RelinKeySet (RelinKey C) η) (rk : String → RelinKey C) (o : MulOrd)
    (I : MulIn C) (u : SwKey C) : Prop where
  wf0 : ∃ L0, I.L ≤ L0 ∧ op0.Wf L0 false
  wf1 : ∃ L1, I.L ≤ L1 ∧ op1.Wf L1 false
  wfOut : ctOut.Wf I.L false
  keysOut : ∀ id, id ∈ ctOut.value.keys ↔ id = "0" ∨ id ∈ op0.parties ∨ id ∈ op1.parties
  S0 : I.S0 = op0.parties
  S1 : I.S1 = op1.parties
  c0 : I.c0 = op0.comp
  c1 : I.c1 = op1.comp
  rk0 : ∀ id ∈ I.S0, rlk.value.get? id = some (rk id)
  rk1 : ∀ id ∈ I.S1, rlk.value.get? id = some (rk id)
  d : I.d = fun id => (rk id).d.kv
  b : I.b = fun id => (rk id).b.kv
  v : I.v = fun id => (rk id).v.kv
  u : I.u = u.kv
  h0 : ∀ id ∈ I.S0, DigSrc I.L op0 h0 (I.h0 id) id
  h1 : ∀ id ∈ I.S1, DigSrc I.L op1 h1 (I.h1 id) id
  ord : o.Ok op0 op1 ctOut

theorem mem_parties {ct : Ct C} {id : String} :
    id ∈ ct.parties ↔ id ∈ ct.value.keys ∧ id ≠ "0" := by
  unfold Ct.parties
  rw [mem_erase, List.mem_toFinset, and_comm]

/-- **Closed form of the multiplication.** -/
theorem mulCore_spec (hC : C.Good) {η : Type _} {op0 op1 ctOut : Ct C}
    {h0 h1 : Option (HoistedCt C)} {rlk : RelinKeySet (RelinKey C) η} {rk : String → RelinKey C}
    {o : MulOrd} {I : MulIn C} {u : SwKey C}
    (H : MulPre op0 op1 ctOut h0 h1 rlk rk o I u)
    {last : ℕ → SwKey C → String → KS C × Ct C → Go (KS C × Ct C)}
    (hlast : LastSpec (last I.L) I.L u) (ks : KS C) (hok : ks.Ok) :
    ∃ ks' ct', ks.mulCore last op0 op1 h0 h1 rlk ctOut o = .ok (ks', ct') ∧ ks'.Ok ∧
      CtIs ct' I.L (insert "0" (op0.parties ∪ op1.parties)) fun id i => (I.res id i).coeff := by
  obtain ⟨L0, hL0, w0⟩ := H.wf0
  obtain ⟨L1, hL1, w1⟩ := H.wf1
  set K : Finset String := insert "0" (op0.parties ∪ op1.parties) with hK
  have h0K : "0" ∈ K := mem_insert_self _ _
  have hS0K : I.S0 ⊆ K := fun id h => by
    rw [H.S0] at h; exact mem_insert_of_mem (mem_union_left _ h)
  have hS1K : I.S1 ⊆ K := fun id h => by
    rw [H.S1] at h; exact mem_insert_of_mem (mem_union_right _ h)
  have hS00 : "0" ∉ I.S0 := fun h => by rw [H.S0] at h; exact (mem_parties.mp h).2 rfl
  have hS10 : "0" ∉ I.S1 := fun h => by rw [H.S1] at h; exact (mem_parties.mp h).2 rfl
  obtain ⟨a0, ha0⟩ := GoMap.exists_get?_of_mem w0.zero_mem
  obtain ⟨a1, ha1⟩ := GoMap.exists_get?_of_mem w1.zero_mem
  obtain ⟨r0, hr0, _, hr0m⟩ := op0.IDSet_spec H.ord.i0
  obtain ⟨r1, hr1, _, _⟩ := op1.IDSet_spec H.ord.i1
  have hr0S : ∀ id, r0.Has id = true ↔ id ∈ I.S0 := fun id => by
    rw [H.S0, mem_parties, ← hr0m]; exact GoMap.has_iff _ _
  have hc0 : ∀ id ∈ I.S0, ∃ p, op0.value.get? id = some p ∧ ∀ i ≤ I.L, ⟨p.row i⟩ = I.c0 id i := by
    intro id hid
    rw [H.S0] at hid
    obtain ⟨p, hp⟩ := GoMap.exists_get?_of_mem (mem_parties.mp hid).1
    exact ⟨p, hp, fun i _ => by
      rw [H.c0, Ct.comp_of_get? hp, RPoly.val_false _ (w0.ntt _ _ hp)]⟩
  have hc1 : ∀ id ∈ I.S1, ∃ p, op1.value.get? id = some p ∧ ∀ i ≤ I.L, ⟨p.row i⟩ = I.c1 id i := by
    intro id hid
    rw [H.S1] at hid
    obtain ⟨p, hp⟩ := GoMap.exists_get?_of_mem (mem_parties.mp hid).1
    exact ⟨p, hp, fun i _ => by
      rw [H.c1, Ct.comp_of_get? hp, RPoly.val_false _ (w1.ntt _ _ hp)]⟩
  have hz0 : ∀ i ≤ I.L, (⟨a0.row i⟩ : Nega C.N (ZMod (C.q i))) = I.c0 "0" i := fun i _ => by
    rw [H.c0, Ct.comp_of_get? ha0, RPoly.val_false _ (w0.ntt _ _ ha0)]
  have hz1 : ∀ i ≤ I.L, (⟨a1.row i⟩ : Nega C.N (ZMod (C.q i))) = I.c1 "0" i := fun i _ => by
    rw [H.c1, Ct.comp_of_get? ha1, RPoly.val_false _ (w1.ntt _ _ ha1)]
  have hout : CtIs ctOut I.L K ctOut.rowsOf := by
    have := H.wfOut.ctIs
    refine ⟨this.wf, fun id => ?_, this.len, this.ntt, this.rows⟩
    rw [H.keysOut, hK, mem_insert, mem_union]
  obtain ⟨oo, hoo, hool, hoon, _⟩ := hout.get h0K
  -- the x and y loops
  obtain ⟨inv1, s1, s3, hx, hX⟩ := xLoop_spec hC (h := I.h0) H.h0 H.rk0 H.ord.x.1
    (H.ord.x.toFinset.trans H.S0.symm)
    { ks with swk1 := zeroAll I.L ks.swk1, swk2 := zeroAll I.L ks.swk2 }
    (zeroAll_holds _ _ _ _)
  obtain ⟨inv2, s2, s3', hy, hY⟩ := yLoop_spec hC (h := I.h1) H.h1 H.rk1 H.ord.y.1
    (H.ord.y.toFinset.trans H.S1.symm)
    { ks with
      poolInv := inv1, swk1 := mformAll I.L s1, swk2 := zeroAll I.L ks.swk2, swk3 := s3 }
    (zeroAll_holds _ _ _ _)
  have hXa := mformAll_agree hC hX
  have hYa := mformAll_agree hC hY
  -- the tensor product
  set pq0 : RQ C := RPoly.mformLvl I.L (a0.nttLvl C.nttQ I.L ks.pq0)
    (a0.nttLvl C.nttQ I.L ks.pq0) with hpq0
  set pq1 : RQ C := a1.nttLvl C.nttQ I.L ks.pq1 with hpq1
  have hp0 : MHolds I.L pq0 (I.c0 "0") := fun i hi => by
    rw [hpq0]
    unfold RPoly.mformLvl RPoly.nttLvl
    rw [RPoly.write_row_of_le _ _ hi, RPoly.write_row_of_le _ _ hi, hz0 i hi]
  have hp1 : MHolds I.L (pq1.mformLvl I.L pq1) (I.c1 "0") := fun i hi => by
    rw [hpq1]
    unfold RPoly.mformLvl RPoly.nttLvl
    rw [RPoly.write_row_of_le _ _ hi, RPoly.write_row_of_le _ _ hi, hz1 i hi]
  have hout1 : CtIs ⟨ctOut.value.set "0" (RPoly.mulMontLvl I.L pq0 pq1 oo)⟩ I.L K
      (fun id i => if id = "0" then C.nttQ.equiv i (I.c0 "0" i * I.c1 "0" i)
        else ctOut.rowsOf id i) := by
    refine hout.set h0K hool hoon (fun i hi => ?_) fun id' _ hne i _ => ?_
    · rw [if_pos rfl]
      unfold RPoly.mulMontLvl
      rw [RPoly.write_row_of_le _ _ hi, hp0 i hi, hpq1]
      unfold RPoly.nttLvl
      rw [RPoly.write_row_of_le _ _ hi, hz1 i hi, mred_mform_row hC]
    · rw [if_neg hne]
  obtain ⟨p2, ct2, ht0, hct2⟩ := t0Loop_spec hC hc0 hS0K H.ord.t0.1
    (H.ord.t0.toFinset.trans H.S0.symm)
    { ks with
      poolInv := inv2, swk1 := mformAll I.L s1, swk2 := mformAll I.L s2, swk3 := s3'
      pq0 := pq0, pq1 := pq1.mformLvl I.L pq1 } hp1 _ hout1
  obtain ⟨p3, ct3, ht1, hct3⟩ := t1Loop_spec hC (S0 := r0) hc1 hS1K H.ord.t1.1
    (H.ord.t1.toFinset.trans H.S1.symm)
    { ks with
      poolInv := inv2, swk1 := mformAll I.L s1, swk2 := mformAll I.L s2, swk3 := s3'
      pq0 := pq0, pq1 := pq1.mformLvl I.L pq1, pq2 := p2 } hp0 _ hct2
  have hoK : o.inv.toFinset = K := by
    ext id
    rw [List.mem_toFinset, H.ord.inv.mem, H.keysOut, hK, mem_insert, mem_union]
  obtain ⟨ct4, hinv, hct4⟩ := invLoop_spec (H.ord.inv.nodup H.wfOut.wf) hoK _ hct3
  have hct4' : CtIs ct4 I.L K fun id i => (I.tensor id i).coeff := by
    refine hct4.congr fun id hid i _ => ?_
    congr 1
    unfold MulIn.tensor
    by_cases h00 : id = "0"
    · subst h00
      simp only [if_true, hS00, hS10, if_false, RingEquiv.symm_apply_apply]
    · simp only [h00, if_false, hr0S]
      by_cases hs0 : id ∈ I.S0
      · by_cases hs1 : id ∈ I.S1
        · simp only [hs0, hs1, if_true, map_add, RingEquiv.symm_apply_apply]
        · simp only [hs0, hs1, if_true, if_false, RingEquiv.symm_apply_apply, add_zero]
      · by_cases hs1 : id ∈ I.S1
        · simp only [hs0, hs1, if_true, if_false, zero_add, RingEquiv.symm_apply_apply]
        · exfalso
          rw [hK, mem_insert, mem_union, ← H.S0, ← H.S1] at hid
          tauto
  -- the key-switching loops
  obtain ⟨inv5, q0, q1, r, ct5, he1, hct5⟩ := e1Loop_spec hC H.h1 hS1K H.ord.e1.1
    (H.ord.e1.toFinset.trans H.S1.symm)
    { ks with
      poolInv := inv2, swk1 := mformAll I.L s1, swk2 := mformAll I.L s2, swk3 := s3'
      pq0 := pq0, pq1 := pq1.mformLvl I.L pq1, pq2 := p3 } hXa _ hct4'
  obtain ⟨ks6, ct6, he0, hok6, hct6⟩ := e0Loop_spec hC hlast H.h0 H.rk0 h0K hS0K hS00
    H.ord.e0.1 (H.ord.e0.toFinset.trans H.S0.symm)
    { ks with
      poolInv := inv5, pool0 := q0, pool1 := q1
      swk1 := mformAll I.L s1, swk2 := mformAll I.L s2, swk3 := s3'
      pq0 := pq0.write I.L r, pq1 := pq1.mformLvl I.L pq1, pq2 := p3 }
    ⟨hok.ntt, hok.len⟩ hYa _ hct5
  refine ⟨ks6, ct6, ?_, hok6, hct6.congr fun id _ i _ => ?_⟩
  · unfold KS.mulCore
    rw [H.wfOut.level, w0.level]
    simp only [Go.ok_bind]
    rw [if_neg (by omega), hr0, hr1]
    simp only [Go.ok_bind, hx, hy, GoMap.deref_of_get? ha0, GoMap.deref_of_get? ha1,
      GoMap.deref_of_get? hoo, ← hpq0, ← hpq1, ht0, ht1, hinv, he1, he0]
  · unfold MulIn.res MulIn.out MulIn.hy MulIn.yhat MulIn.X MulIn.Y
    rw [H.d, H.b, H.v, H.u]

end MK
