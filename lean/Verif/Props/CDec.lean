import Verif.CDec
import Verif.Props.EncDec
import Verif.EvalSpec
import Mathlib.Data.Int.ModEq
import Mathlib.Data.Nat.ChineseRemainder

/-!
# Encryption and decryption of messages; dependence of `Decrypt` on earlier calls (C43, C49)
-/

noncomputable section

namespace MK

open Finset

variable {C : Ctx} {Msg : Type}

/-! ## The centred polynomial -/

theorem qProd_mono (hC : C.Good) {l l' : ℕ} (h : l ≤ l') : C.qProd l ≤ C.qProd l' := by
  refine Nat.le_of_dvd (prod_pos fun i _ => hC.posQ i) ?_
  exact prod_dvd_prod_of_subset _ _ _ (range_subset_range.mpr (by omega))

theorem qProd_dvd (hC : C.Good) {l : ℕ} (hl : l < C.nQ) {x : ℤ} (h : ∀ i ≤ l, (C.q i : ℤ) ∣ x) :
    (C.qProd l : ℤ) ∣ x := by
  have h' : ∀ i ∈ range (l + 1), C.q i ∣ x.natAbs := fun i hi =>
    Int.natCast_dvd.mp (h i (by have := mem_range.mp hi; omega))
  rw [Int.natCast_dvd]
  exact prod_dvd_of_isRelPrime (fun a ha b hb hab => by
    rw [mem_coe, mem_range] at ha hb
    exact Nat.coprime_iff_isRelPrime.mp (hC.copQ a b (by omega) (by omega) hab)) h'

theorem RPoly.IsLift.congr {p p' : RQ C} (hlen : p.level = p'.level)
    (hv : ∀ i ≤ p.level, p.val C.nttQ i = p'.val C.nttQ i) {m : Nega C.N ℤ} (h : p.IsLift m) :
    p'.IsLift m := by
  refine ⟨fun j => hlen ▸ h.1 j, fun i hi => ?_⟩
  rw [← hv i (hlen ▸ hi)]
  exact h.2 i (hlen ▸ hi)

/-- The residues determine the centred polynomial. -/
theorem RPoly.IsLift.unique (hC : C.Good) {p : RQ C} (hp : p.level < C.nQ) {m m' : Nega C.N ℤ}
    (h : p.IsLift m) (h' : p.IsLift m') : m = m' := by
  ext j
  have hd : (C.qProd p.level : ℤ) ∣ m.coeff j - m'.coeff j := by
    refine qProd_dvd hC hp fun i hi => ?_
    have := congrArg (fun x => Nega.coeff x j) ((h.2 i hi).symm.trans (h'.2 i hi))
    simp only [Nega.coeff_red] at this
    rw [← ZMod.intCast_zmod_eq_zero_iff_dvd]
    push_cast
    rw [sub_eq_zero]
    exact this
  have h1 := h.1 j
  have h2 := h'.1 j
  have h3 : |m.coeff j - m'.coeff j| < C.qProd p.level := by
    have := abs_sub (m.coeff j) (m'.coeff j)
    omega
  have := Int.eq_zero_of_abs_lt_dvd hd h3
  omega

theorem RPoly.lift_eq (hC : C.Good) {p : RQ C} (hp : p.level < C.nQ) {m : Nega C.N ℤ}
    (h : p.IsLift m) : p.lift = m := by
  unfold RPoly.lift
  rw [dif_pos ⟨m, h⟩]
  exact (Exists.choose_spec (⟨m, h⟩ : ∃ m, p.IsLift m)).unique hC hp h

/-- Reduce every coefficient to the centred representative modulo `Q`. -/
def centre (Q : ℕ) (m : Nega C.N ℤ) : Nega C.N ℤ := ⟨fun j => (m.coeff j).bmod Q⟩

theorem qProd_odd (hC : C.Good) (l : ℕ) : C.qProd l % 2 = 1 := by
  rw [← Nat.odd_iff]
  unfold Ctx.qProd
  refine Finset.prod_induction _ _ (fun a b ha hb => ha.mul hb) odd_one fun i _ => ?_
  have := hC.oddQ i
  rw [montR] at this
  have h2 := Nat.Coprime.coprime_dvd_right (show 2 ∣ 2 ^ 64 by norm_num) this
  exact Nat.coprime_two_right.mp h2

theorem centre_isLift (hC : C.Good) {p : RQ C} {m : Nega C.N ℤ}
    (h : ∀ i ≤ p.level, p.val C.nttQ i = Nega.red (C.q i) m) :
    p.IsLift (centre (C.qProd p.level) m) := by
  have hpos : 0 < C.qProd p.level := prod_pos fun i _ => hC.posQ i
  have hodd := qProd_odd hC p.level
  refine ⟨fun j => ?_, fun i hi => ?_⟩
  · have h1 := Int.le_bmod (x := m.coeff j) hpos
    have h2 := Int.bmod_lt (x := m.coeff j) hpos
    show 2 * |(m.coeff j).bmod _| < _
    generalize (m.coeff j).bmod (C.qProd p.level) = y at h1 h2 ⊢
    generalize C.qProd p.level = Q at *
    rcases abs_cases y with ⟨h, -⟩ | ⟨h, -⟩ <;> rw [h] <;> omega
  · rw [h i hi]
    ext j
    simp only [Nega.coeff_red]
    show _ = (((m.coeff j).bmod (C.qProd p.level) : ℤ) : ZMod (C.q i))
    rw [ZMod.intCast_eq_intCast_iff]
    have : (C.q i : ℤ) ∣ C.qProd p.level :=
      Int.natCast_dvd_natCast.mpr (dvd_prod_of_mem _ (mem_range.mpr (by omega)))
    exact (Int.ModEq.of_dvd this Int.bmod_emod).symm

/-! ## One call -/

/-- One call of `Decrypt` in any state: the result is decoded from the carried polynomial reduced
modulo the moduli up to the smaller of the two levels, and the pool keeps that level. -/
theorem C43_Decrypt (hC : C.Good) (E : Encoder C Msg) {dec : CDec C} (hd : dec.pool.isNTT = false)
    {ct : CCt C} {L : ℕ} (hw : ct.ct.Ragged L false) (hL : L < C.nQ)
    {skSet : KeySet (SecretKey C)} (hks : KeyedById skSet) {s : String → Nega C.N ℤ}
    (hs : ∀ id ∈ ct.ct.parties, ∃ sk, skSet.value.get? id = some sk ∧ IsSK sk (s id))
    {m : Nega C.N ℤ} (hm : ct.ct.Carries s L m) (π : Sched) :
    ∃ dec', dec.Decrypt E ct skSet π =
        .ok (dec', E.decode (centre (C.qProd (min L dec.pool.level)) m) ct.scale) ∧
      dec'.pool.isNTT = false ∧ dec'.pool.level = min L dec.pool.level := by
  obtain ⟨c1, e1, w1, g1⟩ := Ct.CopyNew_spec ct.ct hw.zero_mem (π.isOrder 0 ct.ct.value)
  have hkeys : ∀ k, k ∈ c1.value.keys ↔ k ∈ ct.ct.value.keys := fun k => by
    rw [← GoMap.has_iff, ← GoMap.has_iff, GoMap.has, GoMap.has, g1]
  have hw1 : c1.Ragged L false :=
    ⟨w1, (hkeys _).mpr hw.zero_mem, fun p hp => hw.len0 p (g1 _ ▸ hp),
      fun id p hp => hw.len id p (g1 _ ▸ hp), fun id p hp => hw.ntt id p (g1 _ ▸ hp)⟩
  have hcomp : ∀ id i, c1.comp id i = ct.ct.comp id i := fun id i => by
    simp only [Ct.comp, g1]
  have hpar : ∀ id ∈ c1.parties, ∃ sk, skSet.value.get? id = some sk ∧ IsSK sk (s id) := by
    intro id hid
    refine hs id ?_
    simpa [Ct.parties, hkeys] using hid
  obtain ⟨pt, e2, hlen, hntt, hval⟩ := C09_decrypt_phase hC hw1 hL hks hpar
    (π.isOrder 1 c1.value) (oI := π.f 2 c1.value.keys) (fun r hr => by
      obtain ⟨r', hr', wr, gr⟩ := Ct.CopyNew_spec c1 hw1.zero_mem (π.isOrder 1 c1.value)
      obtain rfl : r' = r := by rw [hr] at hr'; exact (Except.ok.inj hr').symm
      refine (π.perm 2 _).trans ?_
      refine (List.perm_ext_iff_of_nodup w1 wr).mpr fun k => ?_
      rw [← GoMap.has_iff, ← GoMap.has_iff, GoMap.has, GoMap.has, gr])
    (π.isOrder 3 skSet.value) dec.pool
  have hlev : pt.level = min L dec.pool.level := by rw [RPoly.level, hlen]; rfl
  have hptn : pt.isNTT = false := hntt.trans hd
  refine ⟨⟨pt, ct.scale⟩, ?_, hptn, hlev⟩
  have hlift : pt.lift = centre (C.qProd (min L dec.pool.level)) m := by
    refine RPoly.lift_eq hC (by rw [hlev]; omega) ?_
    rw [← hlev]
    refine centre_isLift hC fun i hi => ?_
    rw [hlev] at hi
    have h1 := hval i hi
    have h2 : ({ pt with isNTT := false } : RQ C) = pt := by rw [← hptn]
    rw [h2] at h1
    rw [h1, Ct.phase_congr s i fun id => hcomp id i]
    exact hm i (by omega)
  unfold CDec.Decrypt CCt.CopyNew Encoder.Decode
  simp only [e1, Go.ok_bind, Go.pure_eq, e2, hlift]

/-! ## Histories -/

/-- An earlier call of `Decrypt`. -/
structure DecCall (C : Ctx) where
  ct : CCt C
  sk : KeySet (SecretKey C)
  π : Sched

/-- Run a history of calls. -/
def CDec.run (E : Encoder C Msg) (dec : CDec C) : List (DecCall C) → Go (CDec C)
  | [] => .ok dec
  | c :: t => do
    let (dec, _) ← dec.Decrypt E c.ct c.sk c.π
    dec.run E t

/-- The call is a legitimate decryption of a level-`L` ciphertext. -/
def DecCall.Ok (c : DecCall C) (L : ℕ) : Prop :=
  c.ct.ct.Ragged L false ∧ L < C.nQ ∧ KeyedById c.sk ∧ ∃ s : String → Nega C.N ℤ,
    ∀ id ∈ c.ct.ct.parties, ∃ sk, c.sk.value.get? id = some sk ∧ IsSK sk (s id)

/-- The lowest level among the pool and the calls. -/
def lowest (l : ℕ) (levels : List ℕ) : ℕ := levels.foldl min l

theorem lowest_le (l : ℕ) (levels : List ℕ) : lowest l levels ≤ l := by
  induction levels generalizing l with
  | nil => exact le_rfl
  | cons a t ih => exact (ih (min l a)).trans (Nat.min_le_left _ _)

theorem exists_carries' (hC : C.Good) (ct : Ct C) (s : String → Nega C.N ℤ) {L : ℕ}
    (hL : L < C.nQ) : ∃ m, ct.Carries s L m := by
  have h : ∀ j, ∃ k : ℕ, ∀ i ∈ range (L + 1), k ≡ ((ct.phase s i).coeff j).val [MOD C.q i] := by
    intro j
    obtain ⟨k, hk⟩ := Nat.chineseRemainderOfFinset (fun i => ((ct.phase s i).coeff j).val) C.q
      (range (L + 1)) (fun i _ => (hC.posQ i).ne') (fun a ha b hb hab => by
        rw [mem_coe, mem_range] at ha hb
        exact hC.copQ a b (by omega) (by omega) hab)
    exact ⟨k, hk⟩
  choose k hk using h
  refine ⟨⟨fun j => k j⟩, fun i hi => ?_⟩
  ext j
  have : NeZero (C.q i) := ⟨(hC.posQ i).ne'⟩
  rw [Nega.coeff_red]
  have := (ZMod.natCast_eq_natCast_iff _ _ _).mpr (hk j i (mem_range.mpr (by omega)))
  rw [ZMod.natCast_zmod_val] at this
  rw [← this]
  simp

/-- Any history of legitimate decryptions runs, and leaves the pool at the lowest level seen. -/
theorem CDec.run_ok (hC : C.Good) (E : Encoder C Msg) {hist : List (DecCall C)} {levels : List ℕ}
    (h : List.Forall₂ DecCall.Ok hist levels) {dec : CDec C} (hd : dec.pool.isNTT = false) :
    ∃ dec', dec.run E hist = .ok dec' ∧ dec'.pool.isNTT = false ∧
      dec'.pool.level = lowest dec.pool.level levels := by
  induction h generalizing dec with
  | nil => exact ⟨dec, rfl, hd, rfl⟩
  | @cons c L t ls hc _ ih =>
    obtain ⟨hw, hL, hks, s, hs⟩ := hc
    obtain ⟨m, hm⟩ := exists_carries' hC c.ct.ct s hL
    obtain ⟨d1, e1, n1, l1⟩ := C43_Decrypt hC E hd hw hL hks hs hm c.π
    obtain ⟨d2, e2, n2, l2⟩ := ih n1
    refine ⟨d2, ?_, n2, ?_⟩
    · simp only [CDec.run, e1, Go.ok_bind, e2]
    · rw [l2, l1, lowest, lowest, List.foldl_cons, min_comm]

theorem centre_eq_self {Q : ℕ} {m : Nega C.N ℤ} (h : ∀ j, 2 * |m.coeff j| < Q) : centre Q m = m := by
  ext j
  have := h j
  show (m.coeff j).bmod Q = m.coeff j
  generalize m.coeff j = x at *
  have h1 := abs_lt.mp (show |x| < Q by omega)
  apply Int.bmod_eq_of_le_mul_two
  · have := neg_abs_le x; omega
  · have := le_abs_self x; omega

theorem centre_ne_self {Q : ℕ} (hQ : 0 < Q) {m : Nega C.N ℤ} {j : Fin C.N}
    (h : (Q : ℤ) < 2 * |m.coeff j|) : centre Q m ≠ m := by
  intro he
  have h0 : (m.coeff j).bmod Q = m.coeff j := congrArg (fun x => Nega.coeff x j) he
  have h1 := Int.le_bmod (x := m.coeff j) hQ
  have h2 := Int.bmod_lt (x := m.coeff j) hQ
  rw [h0] at h1 h2
  generalize m.coeff j = x at *
  rcases abs_cases x with ⟨h', -⟩ | ⟨h', -⟩ <;> rw [h'] at h <;> omega

/-- After any history `Decrypt` returns the message decoded from the carried polynomial modulo the
chain of the lowest level seen. -/
theorem C43_after_history (hC : C.Good) (E : Encoder C Msg) (prm : CPar C) {hist : List (DecCall C)}
    {levels : List ℕ} (h : List.Forall₂ DecCall.Ok hist levels) {ct : CCt C} {L : ℕ}
    (hw : ct.ct.Ragged L false) (hL : L < C.nQ) {skSet : KeySet (SecretKey C)}
    (hks : KeyedById skSet) {s : String → Nega C.N ℤ}
    (hs : ∀ id ∈ ct.ct.parties, ∃ sk, skSet.value.get? id = some sk ∧ IsSK sk (s id))
    {m : Nega C.N ℤ} (hm : ct.ct.Carries s L m) (π : Sched) :
    ∃ dec dec', (CDec.new prm).run E hist = .ok dec ∧ dec.Decrypt E ct skSet π =
      .ok (dec', E.decode (centre (C.qProd (min L (lowest C.lq levels))) m) ct.scale) := by
  obtain ⟨d, e, n, l⟩ := CDec.run_ok hC E h (dec := CDec.new prm) rfl
  obtain ⟨d', e', -, -⟩ := C43_Decrypt hC E n hw hL hks hs hm π
  rw [l] at e'
  exact ⟨d, d', e, e'⟩

/-- When the carried polynomial fits the chain of the lowest level seen, the result is the one of a
new decryptor. -/
theorem C43_history_independent (hC : C.Good) (E : Encoder C Msg) (prm : CPar C)
    {hist : List (DecCall C)} {levels : List ℕ} (h : List.Forall₂ DecCall.Ok hist levels)
    {ct : CCt C} {L : ℕ} (hw : ct.ct.Ragged L false) (hL : L < C.nQ)
    {skSet : KeySet (SecretKey C)} (hks : KeyedById skSet) {s : String → Nega C.N ℤ}
    (hs : ∀ id ∈ ct.ct.parties, ∃ sk, skSet.value.get? id = some sk ∧ IsSK sk (s id))
    {m : Nega C.N ℤ} (hm : ct.ct.Carries s L m)
    (hfit : ∀ j, 2 * |m.coeff j| < C.qProd (min L (lowest C.lq levels))) (π : Sched) :
    ∃ dec dec' dec'', (CDec.new prm).run E hist = .ok dec ∧
      dec.Decrypt E ct skSet π = .ok (dec', E.decode m ct.scale) ∧
      (CDec.new prm).Decrypt E ct skSet π = .ok (dec'', E.decode m ct.scale) := by
  obtain ⟨d, d', e, e'⟩ := C43_after_history hC E prm h hw hL hks hs hm π
  obtain ⟨d0, d0', e0, e0'⟩ := C43_after_history hC E prm List.Forall₂.nil hw hL hks hs hm π
  obtain rfl : CDec.new prm = d0 := Except.ok.inj e0
  rw [centre_eq_self hfit] at e'
  rw [centre_eq_self fun j => lt_of_lt_of_le (hfit j) (by
    have := lowest_le C.lq levels
    exact_mod_cast qProd_mono hC (show min L (lowest C.lq levels) ≤ min L (lowest C.lq []) by
      show _ ≤ min L C.lq
      omega))] at e0'
  exact ⟨d, d', d0', e, e', e0'⟩

/-- Otherwise the claim fails: if some coefficient exceeds half of the smaller modulus, the result
after the history is another message than that of a new decryptor (for an encoder that tells
polynomials apart). -/
theorem C43_history_dependent (hC : C.Good) (E : Encoder C Msg) (prm : CPar C)
    {hist : List (DecCall C)} {levels : List ℕ} (h : List.Forall₂ DecCall.Ok hist levels)
    {ct : CCt C} {L : ℕ} (hw : ct.ct.Ragged L false) (hL : L < C.nQ)
    {skSet : KeySet (SecretKey C)} (hks : KeyedById skSet) {s : String → Nega C.N ℤ}
    (hs : ∀ id ∈ ct.ct.parties, ∃ sk, skSet.value.get? id = some sk ∧ IsSK sk (s id))
    {m : Nega C.N ℤ} (hm : ct.ct.Carries s L m)
    (hfit : ∀ j, 2 * |m.coeff j| < C.qProd (min L C.lq)) {j : Fin C.N}
    (hbig : (C.qProd (min L (lowest C.lq levels)) : ℤ) < 2 * |m.coeff j|)
    (hE : Function.Injective fun m => E.decode m ct.scale) (π : Sched) :
    ∃ dec dec' dec'' msg msg', (CDec.new prm).run E hist = .ok dec ∧
      dec.Decrypt E ct skSet π = .ok (dec', msg) ∧
      (CDec.new prm).Decrypt E ct skSet π = .ok (dec'', msg') ∧ msg ≠ msg' := by
  obtain ⟨d, d', e, e'⟩ := C43_after_history hC E prm h hw hL hks hs hm π
  obtain ⟨d0, d0', e0, e0'⟩ := C43_after_history hC E prm List.Forall₂.nil hw hL hks hs hm π
  obtain rfl : CDec.new prm = d0 := Except.ok.inj e0
  refine ⟨d, d', d0', _, _, e, e', e0', fun heq => ?_⟩
  have h1 := hE heq
  have h2 : centre (C.qProd (min L (lowest C.lq []))) m = m := centre_eq_self hfit
  rw [h2] at h1
  exact centre_ne_self (prod_pos fun i _ => hC.posQ i) hbig h1

/-! ## Encryption of messages -/

/-- An earlier call of `EncryptMsg` or `EncryptPtxt`, into any ciphertext. -/
inductive EncCall (C : Ctx) (Msg : Type) where
  | msg (rnd : EncRand C) (m : Msg) (pk : PublicKey C) (out : CCt C)
  | ptxt (rnd : EncRand C) (pt : RQ C) (scale : ℚ) (pk : PublicKey C) (out : CCt C)

/-- Run a history of calls. -/
def CEnc.run (E : Encoder C Msg) (enc : CEnc C) : List (EncCall C Msg) → Go (CEnc C)
  | [] => .ok enc
  | .msg rnd m pk out :: t => do
    let (enc, _) ← enc.EncryptMsg E rnd m pk out
    enc.run E t
  | .ptxt rnd pt sc pk out :: t => do
    let (enc, _) ← enc.EncryptPtxt rnd pt sc pk out
    enc.run E t

theorem CEnc.EncryptPtxt_state {enc : CEnc C} {rnd : EncRand C} {pt : RQ C} {sc : ℚ}
    {pk : PublicKey C} {out : CCt C} {r : CEnc C × CCt C}
    (h : enc.EncryptPtxt rnd pt sc pk out = .ok r) : r.1.ptxt = enc.ptxt ∧ r.1.scale = enc.scale := by
  unfold CEnc.EncryptPtxt at h
  cases hE : Encrypt enc.poolQ rnd.u rnd.e0 rnd.e1 pt pk out.ct with
  | error e => rw [hE] at h; cases h
  | ok a =>
    rw [hE] at h
    obtain rfl := Except.ok.inj h
    exact ⟨rfl, rfl⟩

theorem CEnc.run_state (E : Encoder C Msg) {hist : List (EncCall C Msg)} {enc enc' : CEnc C}
    (h : enc.run E hist = .ok enc') : enc'.ptxt.len = enc.ptxt.len ∧ enc'.scale = enc.scale := by
  induction hist generalizing enc with
  | nil => obtain rfl := Except.ok.inj h; exact ⟨rfl, rfl⟩
  | cons c t ih =>
    cases c with
    | msg rnd m pk out =>
      unfold CEnc.run at h
      cases hE : enc.EncryptMsg E rnd m pk out with
      | error e => rw [hE] at h; cases h
      | ok a =>
        rw [hE] at h
        have h1 := ih h
        have h2 := CEnc.EncryptPtxt_state hE
        rw [h1.1, h1.2, h2.1, h2.2]
        exact ⟨rfl, rfl⟩
    | ptxt rnd pt sc pk out =>
      unfold CEnc.run at h
      cases hE : enc.EncryptPtxt rnd pt sc pk out with
      | error e => rw [hE] at h; cases h
      | ok a =>
        rw [hE] at h
        have h1 := ih h
        have h2 := CEnc.EncryptPtxt_state hE
        rw [h1.1, h1.2, h2.1, h2.2]
        exact ⟨rfl, rfl⟩

theorem Encoder.Encode_val (E : Encoder C Msg) (p : RQ C) (sc : ℚ) (msg : Msg) {i : ℕ}
    (hi : i ≤ p.level) : (E.Encode p sc msg).val C.nttQ i = Nega.red (C.q i) (E.encode msg sc) := by
  unfold Encoder.Encode RPoly.val
  rw [if_neg Bool.false_ne_true]
  exact congrArg Nega.mk (RPoly.write_row_of_le
    (fun i => (Nega.red (C.q i) (E.encode msg sc)).coeff) p hi)

/-- `EncodeMsgNew` gives a plaintext of the maximal level and default scale, in coefficient form,
carrying the encoded polynomial. -/
theorem C49_EncodeMsgNew (E : Encoder C Msg) (prm : CPar C) (msg : Msg) :
    (EncodeMsgNew E prm msg).1.len = C.nQ ∧ (EncodeMsgNew E prm msg).1.isNTT = false ∧
      (EncodeMsgNew E prm msg).2 = prm.scale ∧ ∀ i ≤ C.lq,
        (EncodeMsgNew E prm msg).1.val C.nttQ i = Nega.red (C.q i) (E.encode msg prm.scale) :=
  ⟨rfl, rfl, rfl, fun _ hi => E.Encode_val _ _ _ hi⟩

/-- `EncryptMsgNewExpand` in any state of the encryptor whose pool has all the moduli and the
default scale: the carried polynomial is the encoded one plus the noise of the samples. -/
theorem CEnc.expand_phase (hC : C.Good) (E : Encoder C Msg) (prm : CPar C) {enc : CEnc C}
    (hlen : enc.ptxt.len = C.nQ) (hsc : enc.scale = prm.scale)
    {pk : PublicKey C} {s e : Nega C.N ℤ} {o : List String} (ho : pk.id ∈ o) (h0 : "0" ∉ o)
    (hpk : IsPK pk s e) (rnd : EncRand C) (msg : Msg) :
    ∃ enc' ct, enc.EncryptMsgNewExpand E prm rnd msg pk o = .ok (enc', ct) ∧
      enc'.ptxt.len = C.nQ ∧ enc'.scale = prm.scale ∧
      ct.ct.Wf C.lq false ∧ ct.ct.parties = o.toFinset ∧ ct.scale = prm.scale ∧
      ∀ sec : String → Nega C.N ℤ, sec pk.id = s → ct.ct.Carries sec C.lq
        (E.encode msg prm.scale + (rnd.u * e + rnd.e0 + rnd.e1 * s)) := by
  have hl : (E.Encode enc.ptxt enc.scale msg).level = C.lq := by
    show enc.ptxt.len - 1 = _
    rw [hlen]
  obtain ⟨pool, r, h1, h2, h3, h4, h6⟩ := C08_encrypt_phase hC ho h0 (L := C.lq)
    (by have := hC.nQ_pos; unfold Ctx.lq; omega) hpk (b := false) rfl enc.poolQ rnd.u rnd.e0 rnd.e1
    (E.Encode enc.ptxt enc.scale msg)
  rw [hl, min_self] at h2 h3 h6
  refine ⟨⟨pool, E.Encode enc.ptxt enc.scale msg, enc.scale⟩, ⟨r, enc.scale⟩, ?_, hlen, hsc,
    h3 (Or.inl le_rfl), h4, hsc, fun sec hsec i hi => ?_⟩
  · unfold CEnc.EncryptMsgNewExpand CEnc.EncryptMsg CEnc.EncryptPtxt
    dsimp only [CCt.new]
    rw [if_neg Bool.false_ne_true] at h1
    rw [h1]; rfl
  · rw [h6 sec hsec i hi, E.Encode_val _ _ _ (by
      show i ≤ enc.ptxt.len - 1
      rw [hlen]; exact hi), hsc]
    exact (map_add _ _ _).symm

/-- The same with a bound on the noise. -/
theorem CEnc.expand_spec (hC : C.Good) (E : Encoder C Msg) (prm : CPar C) {enc : CEnc C}
    (hlen : enc.ptxt.len = C.nQ) (hsc : enc.scale = prm.scale)
    {pk : PublicKey C} {s e : Nega C.N ℤ} {o : List String} (ho : pk.id ∈ o) (h0 : "0" ∉ o)
    (hpk : IsPK pk s e) (rnd : EncRand C) (msg : Msg) {B : ℤ} (hu : rnd.u.Bdd 1) (hs : s.Bdd 1)
    (he : e.Bdd B) (he0 : rnd.e0.Bdd B) (he1 : rnd.e1.Bdd B) :
    ∃ enc' ct w, enc.EncryptMsgNewExpand E prm rnd msg pk o = .ok (enc', ct) ∧
      enc'.ptxt.len = C.nQ ∧ enc'.scale = prm.scale ∧
      ct.ct.Wf C.lq false ∧ ct.ct.parties = o.toFinset ∧ ct.scale = prm.scale ∧
      Nega.Bdd w ((2 * C.N + 1) * B) ∧ ∀ sec : String → Nega C.N ℤ, sec pk.id = s →
        ct.ct.Carries sec C.lq (E.encode msg prm.scale + w) := by
  obtain ⟨enc', ct, h1, h2, h3, h4, h5, h6, h7⟩ := CEnc.expand_phase hC E prm hlen hsc ho h0 hpk rnd msg
  refine ⟨enc', ct, _, h1, h2, h3, h4, h5, h6, ?_, h7⟩
  refine (((hu.mul he).add he0).add (he1.mul hs)).mono (le_of_eq ?_)
  ring

/-- `EncryptMsgNewExpand` after any history of the encryptor: a ciphertext of maximal level and
default scale carrying the encoded polynomial plus a small error. -/
theorem C49_EncryptMsgNewExpand (hC : C.Good) (E : Encoder C Msg) (prm : CPar C)
    {hist : List (EncCall C Msg)} {enc : CEnc C} (hrun : (CEnc.new prm).run E hist = .ok enc)
    {pk : PublicKey C} {s e : Nega C.N ℤ} {o : List String} (ho : pk.id ∈ o) (h0 : "0" ∉ o)
    (hpk : IsPK pk s e) (rnd : EncRand C) (msg : Msg) {B : ℤ} (hu : rnd.u.Bdd 1) (hs : s.Bdd 1)
    (he : e.Bdd B) (he0 : rnd.e0.Bdd B) (he1 : rnd.e1.Bdd B) :
    ∃ enc' ct w, enc.EncryptMsgNewExpand E prm rnd msg pk o = .ok (enc', ct) ∧
      ct.ct.Wf C.lq false ∧ ct.ct.parties = o.toFinset ∧ ct.scale = prm.scale ∧
      Nega.Bdd w ((2 * C.N + 1) * B) ∧ ∀ sec : String → Nega C.N ℤ, sec pk.id = s →
        ct.ct.Carries sec C.lq (E.encode msg prm.scale + w) := by
  obtain ⟨hlen, hsc⟩ := CEnc.run_state E hrun
  obtain ⟨enc', ct, w, h1, -, -, h⟩ := CEnc.expand_spec hC E prm (enc := enc) hlen hsc ho h0 hpk rnd
    msg hu hs he he0 he1
  exact ⟨enc', ct, w, h1, h⟩

/-- `EncryptMsgNew` is the expansion into the singleton id set; id "0" is refused. -/
theorem C49_EncryptMsgNew (E : Encoder C Msg) (prm : CPar C) (enc : CEnc C) (pk : PublicKey C)
    (rnd : EncRand C) (msg : Msg) :
    (pk.id = "0" → (enc.EncryptMsgNew E prm rnd msg pk).panics) ∧
    (pk.id ≠ "0" → enc.EncryptMsgNew E prm rnd msg pk =
      enc.EncryptMsgNewExpand E prm rnd msg pk [pk.id]) := by
  constructor
  · intro h
    unfold CEnc.EncryptMsgNew IDSet.Add
    rw [if_pos h]
    exact ⟨_, rfl⟩
  · intro h
    unfold CEnc.EncryptMsgNew IDSet.Add
    rw [if_neg h]
    rfl

/-- Encryption followed by decryption, with any histories of the encryptor and of the decryptor,
returns the decoding of the encoded polynomial plus an error of at most `(2N+1)B` per coefficient. -/
theorem C49_round_trip (hC : C.Good) (E : Encoder C Msg) (prm : CPar C)
    {hist : List (EncCall C Msg)} {enc : CEnc C} (hrun : (CEnc.new prm).run E hist = .ok enc)
    {dhist : List (DecCall C)} {levels : List ℕ} (h : List.Forall₂ DecCall.Ok dhist levels)
    {pk : PublicKey C} {s : String → Nega C.N ℤ} {e : Nega C.N ℤ} {o : List String}
    (ho : pk.id ∈ o) (h0 : "0" ∉ o) (hpk : IsPK pk (s pk.id) e) (rnd : EncRand C) (msg : Msg) {B : ℤ}
    (hu : rnd.u.Bdd 1) (hs : (s pk.id).Bdd 1) (he : e.Bdd B) (he0 : rnd.e0.Bdd B)
    (he1 : rnd.e1.Bdd B) {skSet : KeySet (SecretKey C)} (hks : KeyedById skSet)
    (hsk : ∀ id ∈ o, ∃ sk, skSet.value.get? id = some sk ∧ IsSK sk (s id))
    (hfit : ∀ j, 2 * (|(E.encode msg prm.scale).coeff j| + (2 * C.N + 1) * B) <
      C.qProd (lowest C.lq levels)) :
    ∃ enc' ct w dec, enc.EncryptMsgNewExpand E prm rnd msg pk o = .ok (enc', ct) ∧
      Nega.Bdd w ((2 * C.N + 1) * B) ∧ (CDec.new prm).run E dhist = .ok dec ∧
      ∀ π, ∃ dec', dec.Decrypt E ct skSet π =
        .ok (dec', E.decode (E.encode msg prm.scale + w) prm.scale) := by
  obtain ⟨enc', ct, w, h1, h2, h3, h4, h5, h6⟩ := C49_EncryptMsgNewExpand hC E prm hrun ho h0 hpk
    rnd msg hu hs he he0 he1
  have hL : C.lq < C.nQ := by have := hC.nQ_pos; unfold Ctx.lq; omega
  obtain ⟨dec, e1, n1, l1⟩ := CDec.run_ok hC E h (dec := CDec.new prm) rfl
  refine ⟨enc', ct, w, dec, h1, h5, e1, fun π => ?_⟩
  obtain ⟨d, d', e2, e3⟩ := C43_after_history hC E prm h h2.ragged hL hks (s := s)
    (by rw [h3]; exact fun id hid => hsk id (List.mem_toFinset.mp hid)) (h6 s rfl) π
  obtain rfl : dec = d := Except.ok.inj (e1.symm.trans e2)
  refine ⟨d', ?_⟩
  rw [e3, h4, centre_eq_self fun j => ?_]
  refine lt_of_le_of_lt ?_ (lt_of_lt_of_le (hfit j) ?_)
  · have := abs_add_le ((E.encode msg prm.scale).coeff j) (w.coeff j)
    have hb := h5 j
    show 2 * |(E.encode msg prm.scale).coeff j + w.coeff j| ≤ _
    linarith
  · rw [min_eq_right (lowest_le C.lq levels)]

end MK
