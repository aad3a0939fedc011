import Verif.Props.FlConst
import Verif.Props.LrRun
import Verif.Props.LrSetup
import Verif.Props.Canon

/-!
# C51: `main` of lr.go from the parsed data to the printed results
-/

noncomputable section

namespace MK.Lr

open Finset
open Word (idx upd idx_of_lt upd_of_lt)

variable {C : Ctx}

/-! ## Encoding, encryption and decryption of slot vectors -/

/-- The slot error of a fresh encryption: encoding error and encryption noise. -/
def freshErr (C : Ctx) (scale : ℚ) (B : ℤ) (ε : ℝ) : ℝ := ε + C.N * (((2 * C.N + 1) * B : ℤ) : ℝ) / scale

theorem le_freshErr {scale : ℚ} (hs : 0 < scale) {B : ℤ} (hB : 0 ≤ B) (ε : ℝ) :
    ε ≤ freshErr C scale B ε := by
  have h1 : (0 : ℝ) < scale := by exact_mod_cast hs
  have h2 : (0 : ℝ) ≤ (((2 * C.N + 1) * B : ℤ) : ℝ) := by exact_mod_cast (by positivity)
  unfold freshErr
  have : 0 ≤ C.N * (((2 * C.N + 1) * B : ℤ) : ℝ) / (scale : ℝ) := by positivity
  linarith

variable {E : Encoder C (List ℂ)} {prm : CPar C} {n : ℕ} [NeZero n] {M ε δ : ℝ}

/-- The largest rounding error of a constant that `main` computes in float64, for constants of size at
most `M`. -/
def flErr (M : ℝ) : ℝ := M ^ 2 / 2 ^ 47

theorem flErr_nonneg (M : ℝ) : 0 ≤ flErr M := by unfold flErr; positivity

/-- `l` is computed in place of `l'`: the same length, and equal up to rounding. -/
structure Rounded (n : ℕ) (M : ℝ) (l l' : List ℂ) : Prop where
  len : l.length = n
  len' : l'.length = n
  le : ∀ x ∈ l', ‖x‖ ≤ M
  near : ∀ i < n, ‖l.getD i 0 - l'.getD i 0‖ ≤ flErr M

omit [NeZero n] in
theorem Rounded.refl {l : List ℂ} (hl : l.length = n) (hM : ∀ x ∈ l, ‖x‖ ≤ M) : Rounded n M l l :=
  ⟨hl, hl, hM, fun i _ => by rw [sub_self, norm_zero]; exact flErr_nonneg M⟩

omit [NeZero n] in
/-- Encoding `l` gives the slots `l'`, with the errors of the encoder and of the rounding. -/
theorem Rounded.enc {scale : ℚ} (hE : E.Accurate scale n (M + flErr M) (ε - flErr M) δ) {l l' : List ℂ}
    (h : Rounded n M l l') {i : ℕ} (hi : i < n) :
    ‖islot (E.encode l scale) i / scale - l'.getD i 0‖ ≤ ε := by
  have h1 := hE.enc l h.len (fun x hx => ?_) i hi
  · have h2 := norm_add_le (islot (E.encode l scale) i / scale - l.getD i 0)
      (l.getD i 0 - l'.getD i 0)
    rw [sub_add_sub_cancel] at h2
    linarith [h.near i hi]
  · obtain ⟨j, hj, rfl⟩ := List.getElem_of_mem hx
    have hj' : j < n := by rw [← h.len]; exact hj
    have h3 := h.near j hj'
    rw [List.getD_eq_getElem _ _ hj, List.getD_eq_getElem _ _ (by rw [h.len']; exact hj')] at h3
    have h4 := norm_add_le (l[j] - l'[j]'(by rw [h.len']; exact hj')) (l'[j]'(by rw [h.len']; exact hj'))
    rw [sub_add_cancel] at h4
    have h5 := h.le _ (List.getElem_mem (by rw [h.len']; exact hj'))
    linarith

theorem encodes_msg (hE : E.Accurate prm.scale n (M + flErr M) (ε - flErr M) δ) (hs : 0 < prm.scale)
    {B : ℤ} (hB : 0 ≤ B) {l l' : List ℂ} (hl : Rounded n M l l') :
    Encodes prm (freshErr C prm.scale B ε) (EncodeMsgNew E prm l) (toSlots n l') := by
  refine ⟨rfl, E.encode l prm.scale, fun i hi => ?_, fun i => ?_⟩
  · obtain ⟨-, h2, -, h4⟩ := C49_EncodeMsgNew E prm l
    have := h4 i (by unfold Ctx.lq; omega)
    rwa [RPoly.val, h2, if_neg Bool.false_ne_true] at this
  · exact (hl.enc hE (ZMod.val_lt i)).trans (le_freshErr hs hB ε)

/-- The encryptor's state. -/
structure EncOk (prm : CPar C) (enc : CEnc C) : Prop where
  len : enc.ptxt.len = C.nQ
  scale : enc.scale = prm.scale

theorem fresh_msg (hC : C.Good) (hE : E.Accurate prm.scale n (M + flErr M) (ε - flErr M) δ)
    (hs : 0 < prm.scale) {B : ℤ}
    {enc : CEnc C} (he : EncOk prm enc) {pk : PublicKey C} {s : String → Nega C.N ℤ}
    {e : Nega C.N ℤ} {S : Finset String} {o : List String} (hS : o.toFinset ⊆ S)
    (ho : pk.id ∈ o) (h0 : "0" ∉ o) (hpk : IsPK pk (s pk.id) e)
    (hs1 : (s pk.id).Bdd 1) (hpe : e.Bdd B) {rnd : EncRand C} (hu : rnd.u.Bdd 1)
    (he0 : rnd.e0.Bdd B) (he1 : rnd.e1.Bdd B) {l l' : List ℂ} (hl : Rounded n M l l') :
    ∃ enc' ct, enc.EncryptMsgNewExpand E prm rnd l pk o = .ok (enc', ct) ∧ EncOk prm enc' ∧
      Fresh prm s S (freshErr C prm.scale B ε) ct (toSlots n l') := by
  obtain ⟨enc', ct, w, h1, h2, h3, h4, h5, h6, h7, h8⟩ := CEnc.expand_spec hC E prm he.len he.scale ho h0
    hpk rnd l hu hs1 hpe he0 he1
  have hsc : (0 : ℝ) < prm.scale := by exact_mod_cast hs
  refine ⟨enc', ct, h1, ⟨h2, h3⟩, h4, Nat.sub_lt hC.nQ_pos one_pos, by rw [h5]; exact hS, h6, hs,
    _, h8 s rfl, fun i => ?_⟩
  show ‖islot (E.encode l prm.scale + w) i.val / prm.scale - toSlots n l' i‖ ≤ _
  rw [islot, slot_add, add_div, add_sub_right_comm]
  refine (norm_add_le _ _).trans (add_le_add (hl.enc hE (ZMod.val_lt i)) ?_)
  rw [norm_div]
  have hns : ‖(prm.scale : ℂ)‖ = prm.scale := by
    have : (prm.scale : ℂ) = ((prm.scale : ℝ) : ℂ) := by push_cast; rfl
    rw [this, Complex.norm_real, Real.norm_eq_abs, abs_of_pos hsc]
  rw [hns]
  gcongr
  exact slot_le (fun j => by exact_mod_cast h7 j) _

theorem fresh_msg1 (hC : C.Good) (hE : E.Accurate prm.scale n (M + flErr M) (ε - flErr M) δ)
    (hs : 0 < prm.scale) {B : ℤ}
    {enc : CEnc C} (he : EncOk prm enc) {pk : PublicKey C} {s : String → Nega C.N ℤ}
    {e : Nega C.N ℤ} {S : Finset String} (hS : pk.id ∈ S) (h0 : pk.id ≠ "0")
    (hpk : IsPK pk (s pk.id) e) (hs1 : (s pk.id).Bdd 1) (hpe : e.Bdd B) {rnd : EncRand C}
    (hu : rnd.u.Bdd 1) (he0 : rnd.e0.Bdd B) (he1 : rnd.e1.Bdd B) {l l' : List ℂ}
    (hl : Rounded n M l l') :
    ∃ enc' ct, enc.EncryptMsgNew E prm rnd l pk = .ok (enc', ct) ∧ EncOk prm enc' ∧
      Fresh prm s S (freshErr C prm.scale B ε) ct (toSlots n l') := by
  rw [(C49_EncryptMsgNew E prm enc pk rnd l).2 h0]
  exact fresh_msg hC hE hs he (o := [pk.id]) (by simpa using hS) (by simp)
    (by simpa using fun h => h0 h.symm) hpk hs1 hpe hu he0 he1 hl

omit [NeZero n] in
/-- `out` is decoded from a polynomial whose slots are as described. -/
def Reads (E : Encoder C (List ℂ)) (v : AVal n) (out : List ℂ) : Prop :=
  ∃ m : Nega C.N ℤ, (∀ i : ZMod n, ‖islot m i.val / v.scale - v.x i‖ ≤ v.err) ∧
    out = E.decode (centre (C.qProd v.lvl) m) v.scale

omit [NeZero n] in
/-- The described values are at most `M` and leave room in the moduli of their level. -/
def AVal.In (C : Ctx) (M : ℝ) (v : AVal n) : Prop :=
  (∀ i, ‖v.x i‖ + v.err ≤ M) ∧ 2 * (v.scale * M) < C.qProd v.lvl

/-- Within those limits the decoded numbers are close to the described ones. -/
theorem Reads.close {logN : ℕ} (hN : C.N = 2 ^ logN) (hlog : 1 ≤ logN) (hn : C.N / 2 = n)
    (hE : E.Accurate prm.scale n M ε δ) {v : AVal n} (hs : 0 < v.scale) {out : List ℂ}
    (h : Reads E v out) (hv : v.In C M) (i : ZMod n) :
    ‖out.getD i.val 0 - v.x i‖ ≤ v.err + δ := by
  obtain ⟨m, hm, rfl⟩ := h
  have hsc : (0 : ℝ) < v.scale := by exact_mod_cast hs
  have hns : ‖(v.scale : ℂ)‖ = v.scale := by
    have : (v.scale : ℂ) = ((v.scale : ℝ) : ℂ) := by push_cast; rfl
    rw [this, Complex.norm_real, Real.norm_eq_abs, abs_of_pos hsc]
  have hsl : ∀ j < n, ‖islot m j / v.scale‖ ≤ M := by
    intro j hj
    have e : ((j : ZMod n)).val = j := ZMod.val_cast_of_lt hj
    have h1 := hm (j : ZMod n)
    rw [e] at h1
    have h2 := norm_add_le (islot m j / v.scale - v.x (j : ZMod n)) (v.x (j : ZMod n))
    rw [sub_add_cancel] at h2
    have := hv.1 (j : ZMod n)
    linarith
  have hfit : ∀ t, 2 * |m.coeff t| < C.qProd v.lvl := by
    intro t
    have h1 : |(Nega.map (Int.castRingHom ℝ) m).coeff t| ≤ v.scale * M := by
      refine coeff_le_slots hN hlog _ (fun j hj => ?_) t
      rw [← islot_eq]
      have h2 := hsl j (by omega)
      rw [norm_div, hns, div_le_iff₀ hsc] at h2
      linarith
    have h3 : |(m.coeff t : ℝ)| ≤ v.scale * M := h1
    have h4 : (2 : ℝ) * |(m.coeff t : ℝ)| < C.qProd v.lvl := by linarith [hv.2]
    exact_mod_cast h4
  rw [centre_eq_self hfit]
  have h1 := hE.dec m v.scale hs hsl i.val (ZMod.val_lt i)
  have h2 := hm i
  have h3 := norm_add_le ((E.decode m v.scale).getD i.val 0 - islot m i.val / v.scale)
    (islot m i.val / v.scale - v.x i)
  rw [sub_add_sub_cancel] at h3
  linarith

omit [NeZero n] in
/-- Decryption of a described ciphertext, when the decryptor has seen no lower level. -/
theorem decrypt_shows (hC : C.Good) (E : Encoder C (List ℂ)) {dec : CDec C}
    (hd : dec.pool.isNTT = false) {s : String → Nega C.N ℤ} {S : Finset String} {ct : CCt C}
    {v : AVal n} (hv : Shows s S ct v) (hlev : v.lvl ≤ dec.pool.level)
    {skSet : KeySet (SecretKey C)} (hks : KeyedById skSet)
    (hsk : ∀ id ∈ S, ∃ sk, skSet.value.get? id = some sk ∧ IsSK sk (s id)) (π : Sched) :
    ∃ dec' out, dec.Decrypt E ct skSet π = .ok (dec', out) ∧ dec'.pool.isNTT = false ∧
      dec'.pool.level = v.lvl ∧ Reads E v out := by
  obtain ⟨m, hm, hx⟩ := hv.val
  obtain ⟨dec', e, h1, h2⟩ := C43_Decrypt hC E hd hv.wf.ragged hv.lt hks
    (fun id hid => hsk id (hv.parties hid)) hm π
  rw [min_eq_left hlev] at e h2
  exact ⟨dec', _, e, h1, h2, m, hx, by rw [hv.scale]⟩

/-! ## The parts of `main` -/

open Classical in
/-- The label encoding: `1` for the chosen class, else `0`. -/
def target (isCls : ℝ → Prop) (y : ℂ) : ℂ := if isCls y.re then 1 else 0

open Classical in
/-- The verdict on a prediction, independently of how the programs compare: 1 if it reaches `1/2`
exactly for a record of the class, else 0. -/
def verdict (p : ℝ) (inClass : Prop) : ℕ := if (1 / 2 ≤ p ↔ inClass) then 1 else 0

omit [NeZero n] in
theorem judge_target (r y : ℂ) (isCls : ℝ → Prop) :
    judge r (target isCls y) = verdict r.re (isCls y.re) := by
  by_cases h : isCls y.re <;> by_cases h1 : 1 / 2 ≤ r.re <;>
    simp [judge, target, verdict, h]

omit [NeZero n] in
theorem verdict_of_close {a b : ℂ} {q : Prop} {e : ℝ} (h : ‖a - b‖ ≤ e) (hm : e < |b.re - 1 / 2|) :
    verdict a.re q = verdict b.re q := by
  have h2 := (Complex.abs_re_le_norm _).trans h
  rw [Complex.sub_re] at h2
  have h3 : (1 / 2 ≤ a.re ↔ 1 / 2 ≤ b.re) := by
    rw [abs_le] at h2
    rcases lt_abs.mp hm with h4 | h4
    · constructor <;> intro <;> linarith
    · constructor <;> intro <;> linarith
  by_cases hq : q <;> by_cases hb : 1 / 2 ≤ b.re <;> have ha := h3 <;> simp only [hb, iff_true, iff_false] at ha <;>
    simp only [verdict, hq, ha, hb]

omit [NeZero n] in
theorem relabel_spec (isCls : ℝ → Prop) {numData : ℕ} {labels : List ℂ} (h : numData ≤ labels.length) :
    ∃ l, relabel isCls numData labels = .ok l ∧ l.length = labels.length ∧
      (∀ i < numData, l.getD i 0 = target isCls (labels.getD i 0)) ∧
      ∀ i, numData ≤ i → l.getD i 0 = labels.getD i 0 := by
  refine forN_inv numData _ (fun j l => l.length = labels.length ∧
    (∀ i < j, l.getD i 0 = target isCls (labels.getD i 0)) ∧
    ∀ i, j ≤ i → l.getD i 0 = labels.getD i 0) labels ⟨rfl, by simp, fun _ _ => rfl⟩ ?_
  rintro j hj l ⟨h1, h2, h3⟩
  have hjl : j < l.length := by omega
  refine ⟨l.set j (target isCls (l.getD j 0)), ?_, by simpa using h1, fun i hi => ?_, fun i hi => ?_⟩
  · rw [idx_of_lt hjl, Go.ok_bind, upd_of_lt hjl, List.getD_eq_getElem _ _ hjl]
    rfl
  · simp only [List.getD_eq_getElem?_getD, List.getElem?_set]
    by_cases hij : j = i
    · subst hij
      rw [if_pos rfl, if_pos hjl, Option.getD_some, ← List.getD_eq_getElem?_getD,
        ← List.getD_eq_getElem?_getD, h3 j le_rfl]
    · rw [if_neg hij, ← List.getD_eq_getElem?_getD, ← List.getD_eq_getElem?_getD]
      exact h2 i (by omega)
  · simp only [List.getD_eq_getElem?_getD, List.getElem?_set]
    rw [if_neg (by omega), ← List.getD_eq_getElem?_getD, ← List.getD_eq_getElem?_getD]
    exact h3 i (by omega)

omit [NeZero n] in
theorem zero_notMem_companies (m : ℕ) : "0" ∉ companies m := by
  intro h
  obtain ⟨i, -, hi⟩ := List.mem_map.mp h
  have := congrArg String.length hi
  rw [String.length_append] at this
  have h7 : "company".length = 7 := rfl
  have h1 : "0".length = 1 := rfl
  omega

omit [NeZero n] in
theorem company0_mem {m : ℕ} (hm : 1 ≤ m) : "company0" ∈ companies m :=
  List.mem_map.mpr ⟨0, List.mem_range.mpr hm, rfl⟩

/-- The hyperparameters are such that no encoded constant exceeds `M`. -/
structure HyperLe (p : Hyper ℂ) (M : ℝ) : Prop where
  one : 1 ≤ M
  c1 : ∀ y : ℂ, y = 0 ∨ y = 1 → ‖-p.gamma / p.batchSize * (p.c0 - y)‖ ≤ M
  c2 : ∀ a, ∀ y : ℂ, y = 0 ∨ y = 1 → ‖-(1 - p.eta a) * p.gamma / p.batchSize * (p.c0 - y)‖ ≤ M
  c3 : ‖-p.gamma / p.batchSize * p.c3‖ ≤ M
  c4 : ∀ a, ‖-(1 - p.eta a) * p.gamma / p.batchSize * p.c3‖ ≤ M
  c5 : ‖p.c1 / p.c3‖ ≤ M
  c6 : ∀ a, ‖1 - p.eta a‖ ≤ M
  c7 : ∀ a, ‖p.eta a‖ ≤ M
  c8 : ‖p.c3‖ ≤ M
  c9 : ‖p.c0‖ ≤ M

/-- The constants computed in float64 are as near to their formulas as `flErr` says. -/
theorem near_of_app {k : ℕ} {x x' : ℂ} {b M : ℝ} (h : App k b x x') (hk : k ≤ 8) (hb : b ≤ 6 * M ^ 2)
    (hx : ‖x‖ ≤ M) : ‖x' - x‖ ≤ flErr M ∧ ‖x‖ ≤ M := by
  refine ⟨(h.le hk).trans ?_, hx⟩
  have h1 : ((k : ℝ) + 1) / 2 ^ 53 ≤ 9 / 2 ^ 53 := by
    have : (k : ℝ) ≤ 8 := by exact_mod_cast hk
    gcongr; linarith
  calc _ ≤ 9 / 2 ^ 53 * (6 * M ^ 2) := mul_le_mul h1 hb h.b0 (by norm_num)
    _ ≤ flErr M := by unfold flErr; nlinarith [sq_nonneg M]

section
variable {F : Fl} (hF : F.Ok) {p : Hyper ℂ} (hp : HyperLe p M)
include hp

omit [NeZero n] in
theorem HyperLe.ab : ‖p.gamma‖ / p.batchSize ≤ 2 * M ∧ ‖p.gamma‖ / p.batchSize * ‖p.c0‖ ≤ M := by
  have e : ∀ y : ℂ, ‖-p.gamma / p.batchSize * (p.c0 - y)‖ = ‖p.gamma‖ / p.batchSize * ‖p.c0 - y‖ := by
    intro y; rw [norm_mul, norm_div, norm_neg, Complex.norm_natCast]
  have h0 := hp.c1 0 (Or.inl rfl)
  have h1 := hp.c1 1 (Or.inr rfl)
  rw [e] at h0 h1
  rw [sub_zero] at h0
  refine ⟨?_, h0⟩
  have ha : 0 ≤ ‖p.gamma‖ / (p.batchSize : ℝ) := by positivity
  have h2 : (1 : ℝ) ≤ ‖p.c0‖ + ‖p.c0 - 1‖ := by
    have := norm_sub_le p.c0 (p.c0 - 1)
    rw [sub_sub_cancel, norm_one] at this
    exact this
  nlinarith

omit [NeZero n] in
theorem HyperLe.aby {y : ℂ} (hy : y = 0 ∨ y = 1) :
    ‖p.gamma‖ / p.batchSize * (‖p.c0‖ + ‖y‖) ≤ 3 * M := by
  obtain ⟨h1, h2⟩ := hp.ab
  have : ‖y‖ ≤ 1 := by rcases hy with rfl | rfl <;> simp
  have ha : 0 ≤ ‖p.gamma‖ / (p.batchSize : ℝ) := by positivity
  nlinarith

omit [NeZero n] in
theorem HyperLe.etaB (a : ℕ) : 1 + ‖p.eta a‖ ≤ 2 * M := by linarith [hp.c7 a, hp.one]

include hF

omit [NeZero n] in
theorem HyperLe.near1 {label : List ℂ} (hl : label.length = n) (h01 : ∀ y ∈ label, y = 0 ∨ y = 1) :
    Rounded n M (fconst1 F p label) (const1 p label) := by
  have hM := hp.one
  have key : ∀ y ∈ label, _ := fun y hy =>
    near_of_app (((app_a hF p).mul (app_y hF p (y := y) (by rcases h01 y hy with rfl | rfl <;> rfl))).rnd hF)
      (by norm_num) ((hp.aby (h01 y hy)).trans (by nlinarith)) (hp.c1 y (h01 y hy))
  refine ⟨by simp [fconst1, hl], by simp [const1, hl], ?_, ?_⟩
  · intro x hx
    obtain ⟨y, hy, rfl⟩ := List.mem_map.mp hx
    exact (key y hy).2
  · intro i hi
    have h : i < label.length := by rw [hl]; exact hi
    rw [List.getD_eq_getElem _ _ (by simpa [fconst1] using h), List.getD_eq_getElem _ _ (by simpa [const1] using h)]
    simp only [fconst1, const1, List.getElem_map]
    exact (key _ (List.getElem_mem h)).1

omit [NeZero n] in
theorem HyperLe.near2 {label : List ℂ} (hl : label.length = n) (h01 : ∀ y ∈ label, y = 0 ∨ y = 1)
    (a : ℕ) : Rounded n M (fconst2 F p label a) (const2 p label a) := by
  have hM := hp.one
  have key : ∀ y ∈ label, _ := fun y hy =>
    near_of_app (((app_ea hF p a).mul (app_y hF p (y := y) (by rcases h01 y hy with rfl | rfl <;> rfl))).rnd hF)
      (by norm_num) (by
        have h1 := hp.aby (h01 y hy)
        have h2 := hp.etaB a
        have h3 : 0 ≤ ‖p.gamma‖ / p.batchSize * (‖p.c0‖ + ‖y‖) := by positivity
        calc _ = (1 + ‖p.eta a‖) * (‖p.gamma‖ / p.batchSize * (‖p.c0‖ + ‖y‖)) := by ring
          _ ≤ 2 * M * (3 * M) := mul_le_mul h2 h1 h3 (by linarith)
          _ = 6 * M ^ 2 := by ring) (hp.c2 a y (h01 y hy))
  refine ⟨by simp [fconst2, hl], by simp [const2, hl], ?_, ?_⟩
  · intro x hx
    obtain ⟨y, hy, rfl⟩ := List.mem_map.mp hx
    exact (key y hy).2
  · intro i hi
    have h : i < label.length := by rw [hl]; exact hi
    rw [List.getD_eq_getElem _ _ (by simpa [fconst2] using h), List.getD_eq_getElem _ _ (by simpa [const2] using h)]
    simp only [fconst2, const2, List.getElem_map]
    exact (key _ (List.getElem_mem h)).1

omit [NeZero n] hF hp in
theorem near_replicate {x x' : ℂ} (h : ‖x' - x‖ ≤ flErr M ∧ ‖x‖ ≤ M) :
    Rounded n M (List.replicate n x') (List.replicate n x) := by
  refine ⟨by simp, by simp, fun y hy => ?_, fun i hi => ?_⟩
  · rw [List.eq_of_mem_replicate hy]; exact h.2
  · simpa [List.getD_eq_getElem?_getD, hi] using h.1

omit [NeZero n] in
theorem HyperLe.near3 : Rounded n M (fconst3 F p n) (const3 p n) := by
  have hM := hp.one
  refine near_replicate (near_of_app (((app_a hF p).mul (app_base hF p.c3)).rnd hF) (by norm_num) ?_ hp.c3)
  obtain ⟨h1, -⟩ := hp.ab
  calc _ ≤ 2 * M * M := mul_le_mul h1 hp.c8 (norm_nonneg _) (by linarith)
    _ ≤ _ := by nlinarith

omit [NeZero n] in
theorem HyperLe.near4 (a : ℕ) : Rounded n M (fconst4 F p n a) (const4 p n a) := by
  have hM := hp.one
  refine near_replicate (near_of_app (((app_ea hF p a).mul (app_base hF p.c3)).rnd hF) (by norm_num) ?_ (hp.c4 a))
  have h1 : ‖p.gamma‖ / p.batchSize * ‖p.c3‖ ≤ M := by
    have := hp.c3
    rwa [norm_mul, norm_div, norm_neg, Complex.norm_natCast] at this
  calc _ = (1 + ‖p.eta a‖) * (‖p.gamma‖ / p.batchSize * ‖p.c3‖) := by ring
    _ ≤ 2 * M * M := mul_le_mul (hp.etaB a) h1 (by positivity) (by linarith)
    _ ≤ _ := by nlinarith

omit [NeZero n] in
theorem HyperLe.near5 : Rounded n M (fconst5 F p n) (const5 p n) := by
  have hM := hp.one
  have h5 := hp.c5
  rw [div_eq_mul_inv] at h5
  have := near_of_app (M := M) (((app_base hF p.c1).mul (App.inv hF p.c3)).rnd hF) (by norm_num)
    (by rw [← norm_mul]; nlinarith) h5
  rw [← div_eq_mul_inv, ← div_eq_mul_inv] at this
  exact near_replicate this

omit [NeZero n] in
theorem HyperLe.near6 (a : ℕ) : Rounded n M (fconst6 F p n a) (const6 p n a) := by
  have hM := hp.one
  exact near_replicate (near_of_app (app_e hF p a) (by norm_num)
    ((hp.etaB a).trans (by nlinarith)) (hp.c6 a))

omit [NeZero n] in
theorem HyperLe.near7 (a : ℕ) : Rounded n M (fconst7 F p n a) (const7 p n a) := by
  have hM := hp.one
  exact near_replicate (near_of_app (app_base hF _) (by norm_num)
    ((hp.c7 a).trans (by nlinarith)) (hp.c7 a))

omit [NeZero n] in
theorem HyperLe.near8 : Rounded n M (fconst8 F p n) (const8 p n) := by
  have hM := hp.one
  exact near_replicate (near_of_app (app_base hF _) (by norm_num)
    (hp.c8.trans (by nlinarith)) hp.c8)

omit [NeZero n] in
theorem HyperLe.near9 : Rounded n M (fconst9 F p n) (const9 p n) := by
  have hM := hp.one
  exact near_replicate (near_of_app (app_base hF _) (by norm_num)
    (hp.c9.trans (by nlinarith)) hp.c9)

end

/-- What the parameters, keys and encryptions of a run need: valid parameters (the moduli within a
factor `r` of the scale, enough levels), samples within their bounds, an accurate encoder.  `ε` bounds
the errors of the encoder and of the float64 constants together. -/
structure RunOk (E : Encoder C (List ℂ)) (prm0 : CPar C) (logN : ℕ) (hp : Hyper ℂ)
    (slotNum numIter numCompany : ℕ) (rnd : MainRand C) (r : ℚ) (K : ℕ) (D B : ℤ) (M ε δ : ℝ) :
    Prop where
  good : C.Good
  fits : C.Fits
  N_eq : C.N = 2 ^ logN
  logN_pos : 1 ≤ logN
  slots : slotNum = C.N / 2
  fl : prm0.fl.Ok
  chain : Chain prm0 r K
  levels : 4 * numIter + 4 ≤ C.nQ
  drift : 15 * (3 ^ numIter - 1) + 6 ≤ K
  q0 : 2 < C.q 0
  B0 : 0 ≤ B
  Bq : 2 * B < C.q 0
  D0 : 0 ≤ D
  digit : digitMax C D
  crsLen : ((rnd.sample 0) 0).Q.len = C.nQ
  party : ∀ id ∈ companies numCompany, (rnd.party id).Ok B
  encU : ∀ t, (rnd.enc t).u.Bdd 1
  encE0 : ∀ t, (rnd.enc t).e0.Bdd B
  encE1 : ∀ t, (rnd.enc t).e1.Bdd B
  encoder : E.Accurate prm0.scale slotNum (M + flErr M) (ε - flErr M) δ
  two : 2 ≤ slotNum
  hyper : HyperLe hp M
  c3 : hp.c3 ≠ 0
  company : 1 ≤ numCompany

omit [NeZero n] in
theorem RunOk.accurate {prm0 : CPar C} {logN : ℕ} {hp : Hyper ℂ}
    {slotNum numIter numCompany : ℕ} {rnd : MainRand C} {r : ℚ} {K : ℕ} {D B : ℤ}
    (h : RunOk E prm0 logN hp slotNum numIter numCompany rnd r K D B M ε δ) :
    E.Accurate prm0.scale slotNum M ε δ := by
  have hM := flErr_nonneg M
  refine ⟨fun l hl hx i hi => (h.encoder.enc l hl (fun x h => (hx x h).trans (by linarith)) i hi).trans
    (by linarith), h.encoder.len, fun m sc hs hx => h.encoder.dec m sc hs
      (fun i hi => (hx i hi).trans (by linarith))⟩

/-- What a run of `main` needs: parameters, keys and encryptions as in `RunOk`, and data of the
expected shape. -/
structure MainOk (E : Encoder C (List ℂ)) (prm0 : CPar C) (logN : ℕ) (cfg : MainCfg) (rnd : MainRand C)
    (data : List (List ℂ)) (labels : List ℂ) (r : ℚ) (K : ℕ) (D B : ℤ) (M ε δ : ℝ) : Prop extends
    RunOk E prm0 logN cfg.hp cfg.slotNum cfg.numIter cfg.numCompany rnd r K D B M ε δ where
  rows : ∃ a, cfg.numRow = 2 ^ a
  cols : ∃ b, cfg.numCol = 2 ^ b
  shape : cfg.slotNum = cfg.numRow * cfg.numCol
  feat : cfg.numFeature ≤ cfg.numCol
  batch : cfg.hp.batchSize ≤ cfg.numRow
  batchData : cfg.hp.batchSize ≤ cfg.numData
  dataLen : cfg.numData ≤ data.length
  labelLen : cfg.numData ≤ labels.length
  rowLen : ∀ i < cfg.numData, cfg.numFeature ≤ (data.getD i []).length
  dataLe : ∀ row ∈ data, ∀ x ∈ row, ‖x‖ ≤ M
  testId : cfg.testId < cfg.numData

/-- The plain training: the first `t` Nesterov iterates on the training records. -/
def plainTrain (cfg : MainCfg) (data : List (List ℂ)) (labels : List ℂ) (t : ℕ) :
    (ℕ → ℂ) × (ℕ → ℂ) :=
  nesterovRun cfg.hp (fun _ => grad cfg.hp cfg.numFeature cfg.hp.batchSize (entry data)
    fun i => target cfg.isCls (labels.getD i 0)) t (fun _ => 0, fun _ => 0)

/-- The plain prediction for the test record. -/
def plainPredict (cfg : MainCfg) (data : List (List ℂ)) (labels : List ℂ) : ℂ :=
  sigma3 cfg.hp (∑ j ∈ range cfg.numFeature,
    entry data cfg.testId j * (plainTrain cfg data labels cfg.numIter).1 j)

omit [NeZero n] in
theorem slice02_of_reads {scale : ℚ} (hE : E.Accurate scale n M ε δ) (h2 : 2 ≤ n) {v : AVal n}
    {out : List ℂ} (h : Reads E v out) : slice02 out = .ok (out.take 2) := by
  obtain ⟨m, -, rfl⟩ := h
  rw [slice02, if_pos]
  rw [hE.len]; exact h2

/-- The training loop with its decryptions. -/
theorem trainLoop_spec {S : Finset String} {kb : KeyBag C} {rk : String → RelinKey C}
    {s : String → Nega C.N ℤ} {D T B : ℤ} {η : ℝ} {r : ℚ} {K : ℕ} {scale : ℚ}
    (W : Setup prm n S kb.rtkSet rk s D T B) (H : Chain prm r K)
    (hE : E.Accurate scale n M ε δ) (h2 : 2 ≤ n) (hks : KeyedById kb.skSet)
    (hsk : ∀ id ∈ S, ∃ sk, kb.skSet.value.get? id = some sk ∧ IsSK sk (s id))
    {k : Consts (CCt C) (RQ C × ℚ)} {kx : Consts (Slots n ℂ) (Slots n ℂ)}
    (hk : ConstsRel (Fresh prm s S η) (Encodes prm η) k kx) (numRow numCol : ℕ)
    {d : Data (CCt C) (RQ C × ℚ)} {dx : Data (Slots n ℂ) (Slots n ℂ)}
    (hd : DataRel (Fresh prm s S η) (Encodes prm η) d dx) {beta v : CCt C} {xb xv : Slots n ℂ}
    (hb : Fresh prm s S η beta xb) (hv : Fresh prm s S η v xv) (sch dsch : ℕ → Sched) {m : Mach C}
    (hm : m.Ok S rk) (t : ℕ) (hL : 4 * t + 1 ≤ C.nQ) (hK : 10 * (3 ^ t - 1) ≤ K) :
    ∃ st vb vv, forUp t (trainStep E prm kb sch dsch k numRow numCol d)
        ⟨beta, v, m, CDec.new prm, []⟩ = .ok st ∧
      lrTrain (realHE prm kb.rtkSet sch) k numRow numCol d t beta v m = .ok ((st.beta, st.v), st.mach) ∧
      st.mach.Ok S rk ∧ trainVal prm n S.card D T B η kx numRow numCol dx t xb xv = some (vb, vv) ∧
      Shows s S st.beta vb ∧ Shows s S st.v vv ∧
      st.dec.pool.isNTT = false ∧ C.nQ - 1 - 4 * t ≤ st.dec.pool.level ∧ st.prints.length = t ∧
      ∀ u < t, ∃ wb wv bd vd,
        trainVal prm n S.card D T B η kx numRow numCol dx (u + 1) xb xv = some (wb, wv) ∧
        Reads E wb bd ∧ Reads E wv vd ∧ st.prints[u]? = some (bd.take 2, vd.take 2) := by
  induction t with
  | zero =>
    refine ⟨⟨beta, v, m, CDec.new prm, []⟩, freshVal prm η xb, freshVal prm η xv, rfl, rfl, hm, rfl, hb,
      hv, rfl, ?_, rfl, fun u hu => absurd hu (by omega)⟩
    show C.nQ - 1 - 4 * 0 ≤ C.nQ - 1
    omega
  | succ t ih =>
    have h3 : 3 ^ t ≤ 3 ^ (t + 1) := Nat.pow_le_pow_right (by norm_num) (by omega)
    obtain ⟨st, vb, vv, e1, e2, -, -, -, -, d1, d2, p1, p2⟩ := ih (by omega) (by omega)
    obtain ⟨wb, wv, e3, m1, m2, -⟩ := trainVal_spec H W.good W.fl S.card D T B η kx numRow numCol dx
      (numIter := t + 1) (by omega) (by unfold kAfter; omega) xb xv
    obtain ⟨⟨b', v'⟩, m', e4, hm', s1, s2⟩ := lrTrain_sim (realHE_sim W sch) (constsShow hk) numRow
      numCol (dataShow hd) (t + 1) hb hv _ e3 m hm
    have s1 : Shows s S b' wb := s1
    have s2 : Shows s S v' wv := s2
    have e5 : lrIter (realHE prm kb.rtkSet sch) k numRow numCol d t (st.beta, st.v) st.mach =
        .ok ((b', v'), m') := by
      have : lrTrain (realHE prm kb.rtkSet sch) k numRow numCol d (t + 1) beta v m =
          (lrTrain (realHE prm kb.rtkSet sch) k numRow numCol d t beta v m >>= fun x =>
            lrIter (realHE prm kb.rtkSet sch) k numRow numCol d t x.1 x.2) := rfl
      rw [this, e2] at e4
      exact e4
    have l1 : wb.lvl = C.nQ - 1 - 4 * (t + 1) := m1.1
    have l2 : wv.lvl = C.nQ - 1 - 4 * (t + 1) := m2.1
    obtain ⟨dec1, bd, f1, f2, f3, f4⟩ := decrypt_shows W.good E d1 s1 (by omega) hks hsk (dsch (2 * t))
    obtain ⟨dec2, vd, g1, g2, g3, g4⟩ := decrypt_shows W.good E f2 s2 (by omega) hks hsk
      (dsch (2 * t + 1))
    refine ⟨⟨b', v', m', dec2, st.prints ++ [(bd.take 2, vd.take 2)]⟩, wb, wv, ?_, e4, hm', e3, s1, s2,
      g2, by show _ ≤ dec2.pool.level; omega, by simp [p1], fun u hu => ?_⟩
    · show (forUp t (trainStep E prm kb sch dsch k numRow numCol d)
        ⟨beta, v, m, CDec.new prm, []⟩ >>= _) = _
      rw [e1]
      simp only [Go.ok_bind, trainStep, e5, f1, slice02_of_reads hE h2 f4, g1,
        slice02_of_reads hE h2 g4, Go.pure_eq]
    · rcases Nat.lt_succ_iff_lt_or_eq.mp hu with hu | rfl
      · obtain ⟨a1, a2, a3, a4, h1, h2, h3, h4⟩ := p2 u hu
        exact ⟨a1, a2, a3, a4, h1, h2, h3, by
          show (st.prints ++ _)[u]? = _
          rw [List.getElem?_append_left (by omega), h4]⟩
      · exact ⟨wb, wv, bd, vd, e3, f4, g4, by
          show (st.prints ++ _)[u]? = _
          rw [List.getElem?_append_right (by omega), p1]; simp⟩

/-! ## The packed lists stay below `M` -/

omit [NeZero n] in
theorem mem_of_getD {l : List ℂ} {P : ℂ → Prop} (h : ∀ i < l.length, P (l.getD i 0)) :
    ∀ x ∈ l, P x := by
  intro x hx
  obtain ⟨i, hi, rfl⟩ := List.getElem_of_mem hx
  have := h i hi
  rwa [List.getD_eq_getElem _ _ hi] at this

omit [NeZero n] in
theorem entry_le {data : List (List ℂ)} (h0 : 0 ≤ M) (h : ∀ row ∈ data, ∀ x ∈ row, ‖x‖ ≤ M) (i j : ℕ) :
    ‖entry data i j‖ ≤ M := by
  unfold entry
  rcases lt_or_ge i data.length with hi | hi
  · rw [List.getD_eq_getElem _ _ hi]
    rcases lt_or_ge j data[i].length with hj | hj
    · rw [List.getD_eq_getElem _ _ hj]
      exact h _ (List.getElem_mem hi) _ (List.getElem_mem hj)
    · rw [List.getD_eq_default _ _ hj, norm_zero]; exact h0
  · rw [List.getD_eq_default _ _ hi]; simpa using h0

omit [NeZero n] in
theorem packZ_le {cols F B rows : ℕ} {data : List (List ℂ)} (hn : n = rows * cols) (hB : B ≤ rows)
    (hF : F ≤ cols) (hc : 0 < cols) (hd : B ≤ data.length)
    (hrow : ∀ r < B, F ≤ (data.getD r []).length) (h0 : 0 ≤ M)
    (h : ∀ row ∈ data, ∀ x ∈ row, ‖x‖ ≤ M) {z : List ℂ} (hz : packZ n cols F B data = .ok z) :
    z.length = n ∧ ∀ x ∈ z, ‖x‖ ≤ M := by
  obtain ⟨z', e, h1, h2⟩ := packZ_spec (slotNum := n) (by rw [hn]; exact Nat.mul_le_mul_right _ hB) hF hd hrow
  obtain rfl : z' = z := by rw [hz] at e; exact (Except.ok.inj e).symm
  refine ⟨h1, mem_of_getD fun i _ => ?_⟩
  rw [← Nat.div_add_mod i cols, h2 _ _ (Nat.mod_lt _ hc)]
  split_ifs
  · exact entry_le h0 h _ _
  · simpa using h0

omit [NeZero n] in
theorem packLabel_mem {cols B rows : ℕ} {labels : List ℂ} (hn : n = rows * cols) (hB : B ≤ rows)
    (hc : 0 < cols) (hl : B ≤ labels.length)
    (h : ∀ i < B, labels.getD i 0 = 0 ∨ labels.getD i 0 = 1) {z : List ℂ}
    (hz : packLabel n cols B labels = .ok z) : z.length = n ∧ ∀ y ∈ z, y = 0 ∨ y = 1 := by
  obtain ⟨z', e, h1, h2⟩ := packLabel_spec (slotNum := n) (by rw [hn]; exact Nat.mul_le_mul_right _ hB) hl
  obtain rfl : z' = z := by rw [hz] at e; exact (Except.ok.inj e).symm
  refine ⟨h1, mem_of_getD fun i _ => ?_⟩
  rw [← Nat.div_add_mod i cols, h2 _ _ (Nat.mod_lt _ hc)]
  split_ifs with h3
  · exact h _ h3
  · exact Or.inl rfl

omit [NeZero n] in
theorem packTest_le {F : ℕ} {row : List ℂ} (hF : F ≤ n) (hrow : F ≤ row.length) (h0 : 0 ≤ M)
    (h : ∀ x ∈ row, ‖x‖ ≤ M) {z : List ℂ} (hz : packTest n F row = .ok z) :
    z.length = n ∧ ∀ x ∈ z, ‖x‖ ≤ M := by
  obtain ⟨z', e, h1, h2⟩ := packTest_spec (slotNum := n) hF hrow
  obtain rfl : z' = z := by rw [hz] at e; exact (Except.ok.inj e).symm
  refine ⟨h1, mem_of_getD fun i _ => ?_⟩
  rw [h2]
  split_ifs with h3
  · rw [List.getD_eq_getElem _ _ (by omega)]; exact h _ (List.getElem_mem _)
  · simpa using h0

/-! ## `main` -/

/-- What the keys and encryptions of `main` provide: `S` are the companies, `η` the error of a fresh
ciphertext. -/
structure MainKeys (E : Encoder C (List ℂ)) (prm : CPar C) (n : ℕ) (logN : ℕ) (numCompany : ℕ)
    (rnd : MainRand C) (D B : ℤ) (M η : ℝ) (ids : IDSet) (kb : KeyBag C) (pk : PublicKey C) :
    Prop where
  ids_eq : IDSet.addAll IDSet.new (companies numCompany) = .ok ids
  gen : genTestParams logN (newCRS logN rnd.sample) rnd.sample' rnd.party
    (rnd.ids.f 0 (GoMap.keys ids)) = .ok (prm.crs, kb)
  pk_eq : kb.pkSet.get "company0" = .ok pk
  keyed : KeyedById kb.skSet
  sk : ∀ id ∈ (companies numCompany).toFinset, ∃ sk, kb.skSet.value.get? id = some sk ∧
    IsSK sk ((rnd.party id).s)
  setup : Setup prm n (companies numCompany).toFinset kb.rtkSet kb.rk
    (fun id => (rnd.party id).s) D 1 B
  mach : (Mach.start kb).Ok (companies numCompany).toFinset kb.rk
  fl : prm.fl.Ok
  enc1' : ∀ {enc : CEnc C}, EncOk prm enc → ∀ t (msg msg' : List ℂ), Rounded n M msg msg' →
    ∃ enc' ct, enc.EncryptMsgNew E prm (rnd.enc t) msg pk = .ok (enc', ct) ∧
      EncOk prm enc' ∧ Fresh prm (fun id => (rnd.party id).s) (companies numCompany).toFinset η ct
        (toSlots n msg')
  encAll : ∀ {enc : CEnc C}, EncOk prm enc → ∀ k t (msg : List ℂ), msg.length = n →
    (∀ x ∈ msg, ‖x‖ ≤ M) → ∃ enc' ct, enc.EncryptMsgNewExpand E prm (rnd.enc t) msg pk
        (rnd.ids.f k (GoMap.keys ids)) = .ok (enc', ct) ∧
      EncOk prm enc' ∧ Fresh prm (fun id => (rnd.party id).s) (companies numCompany).toFinset η ct
        (toSlots n msg)
  encode' : ∀ (msg msg' : List ℂ), Rounded n M msg msg' →
    Encodes prm η (EncodeMsgNew E prm msg) (toSlots n msg')

omit [NeZero n] in
theorem MainKeys.enc1 {prm : CPar C} {logN n numCompany : ℕ} {rnd : MainRand C}
    {D B : ℤ} {η : ℝ} {ids : IDSet} {kb : KeyBag C} {pk : PublicKey C}
    (X : MainKeys E prm n logN numCompany rnd D B M η ids kb pk) {enc : CEnc C} (h : EncOk prm enc)
    (t : ℕ) (msg : List ℂ) (hl : msg.length = n) (hM : ∀ x ∈ msg, ‖x‖ ≤ M) :
    ∃ enc' ct, enc.EncryptMsgNew E prm (rnd.enc t) msg pk = .ok (enc', ct) ∧
      EncOk prm enc' ∧ Fresh prm (fun id => (rnd.party id).s) (companies numCompany).toFinset η ct
        (toSlots n msg) := X.enc1' h t msg msg (Rounded.refl hl hM)

attribute [local irreducible] setupCRS

/-- `params` after `genTestParams` -/
def mainPar (prm0 : CPar C) (logN : ℕ) (rnd : MainRand C) : CPar C :=
  { prm0 with crs := setupCRS logN rnd.sample rnd.sample' }

omit [NeZero n] in
theorem main_keys {prm0 : CPar C} {logN : ℕ} {hp : Hyper ℂ}
    {slotNum numIter numCompany : ℕ} {rnd : MainRand C} {r : ℚ} {K : ℕ} {D B : ℤ}
    (h : RunOk E prm0 logN hp slotNum numIter numCompany rnd r K D B M ε δ) {prm : CPar C}
    (hps : prm.scale = prm0.scale) (hpf : prm.fl = prm0.fl)
    (hpc : prm.crs = setupCRS logN rnd.sample rnd.sample') :
    ∃ ids kb pk, MainKeys E prm slotNum logN numCompany rnd D B M (freshErr C prm.scale B ε) ids kb pk := by
  have : NeZero slotNum := ⟨by have := h.two; omega⟩
  have hsc : 0 < prm.scale := by have := h.chain.scale; rw [hps]; linarith
  have hE : E.Accurate prm.scale slotNum (M + flErr M) (ε - flErr M) δ := by rw [hps]; exact h.encoder
  have hfl : prm.fl.Ok := by rw [hpf]; exact h.fl
  obtain ⟨ids, eid, wid, mid⟩ := IDSet.addAll_spec (companies numCompany)
    (zero_notMem_companies _) IDSet.new GoMap.empty_wf
  have hids : ∀ k id, id ∈ rnd.ids.f k (GoMap.keys ids) ↔ id ∈ companies numCompany := by
    intro k id
    rw [(rnd.ids.perm k _).mem_iff, mid]
    simp [IDSet.new, GoMap.empty, GoMap.keys]
  have hfin : ∀ k, (rnd.ids.f k (GoMap.keys ids)).toFinset = (companies numCompany).toFinset := by
    intro k
    ext id
    rw [List.mem_toFinset, List.mem_toFinset, hids]
  have h0ids : ∀ k, "0" ∉ rnd.ids.f k (GoMap.keys ids) := fun k hk =>
    zero_notMem_companies _ ((hids k _).mp hk)
  obtain ⟨kb, ekb, hpk, hks, -, W, hm0⟩ := C50_genTestParams h.good h.fits h.N_eq h.logN_pos
    (prm := prm) hfl hsc h.crsLen hpc h.q0 h.B0 h.Bq h.D0 h.digit
    (rnd.ids.f 0 (GoMap.keys ids)) fun id hid => h.party id ((hids 0 id).mp hid)
  rw [hfin] at W hm0
  have hco := company0_mem h.company
  obtain ⟨pk, gpk, idpk, ipk⟩ := (hpk "company0" ((hids 0 _).mpr hco)).pk
  have hp0 := h.party _ hco
  have ipk' : IsPK pk ((fun id => (rnd.party id).s) pk.id) (rnd.party "company0").e := by
    rw [idpk]; exact ipk
  have hs1 : ((fun id => (rnd.party id).s) pk.id).Bdd 1 := by rw [idpk]; exact hp0.s
  have hpk0 : pk.id ≠ "0" := by rw [idpk]; decide
  have hpkS : pk.id ∈ (companies numCompany).toFinset := by
    rw [idpk]; exact List.mem_toFinset.mpr hco
  refine ⟨ids, kb, pk, eid, ekb, ?_, hks, ?_, ?_, hm0, hfl, ?_, ?_, ?_⟩
  · rw [KeySet.get, gpk]
  · intro id hid
    obtain ⟨sk, g1, -, g2⟩ := (hpk id ((hids 0 id).mpr (List.mem_toFinset.mp hid))).sk
    exact ⟨sk, g1, g2⟩
  · rw [h.slots]; exact W
  · intro enc henc t msg msg' h1
    exact fresh_msg1 (s := fun id => (rnd.party id).s) h.good hE hsc henc hpkS hpk0 ipk' hs1 hp0.e (h.encU t) (h.encE0 t)
      (h.encE1 t) h1
  · intro enc henc k t msg h1 h2
    exact fresh_msg (s := fun id => (rnd.party id).s) h.good hE hsc henc (le_of_eq (hfin k))
      (by rw [idpk]; exact (hids k _).mpr hco) (h0ids k) ipk' hs1 hp0.e (h.encU t) (h.encE0 t)
      (h.encE1 t) (Rounded.refl h1 h2)
  · intro msg msg' h1
    exact encodes_msg hE hsc h.B0 h1

omit [NeZero n] in
theorem MainKeys.consts {prm : CPar C} {logN n numCompany : ℕ} [NeZero n] {rnd : MainRand C}
    {D B : ℤ} {η : ℝ} {ids : IDSet} {kb : KeyBag C} {pk : PublicKey C}
    (X : MainKeys E prm n logN numCompany rnd D B M η ids kb pk) {p : Hyper ℂ} (hp : HyperLe p M)
    (w : ℕ) {c5 c9 : CCt C}
    (h5 : Fresh prm (fun id => (rnd.party id).s) (companies numCompany).toFinset η c5
      (toSlots n (const5 p n)))
    (h9 : Fresh prm (fun id => (rnd.party id).s) (companies numCompany).toFinset η c9
      (toSlots n (const9 p n))) :
    ConstsRel (Fresh prm (fun id => (rnd.party id).s) (companies numCompany).toFinset η)
      (Encodes prm η) (mainConsts E prm p n w c5 c9) (constSlots n w p) := by
  have hM0 : 0 ≤ M := zero_le_one.trans hp.one
  refine ⟨X.encode' _ _ (Rounded.refl (by simp [maskVec]) ?_), X.encode' _ _ (hp.near3 X.fl),
    fun a => X.encode' _ _ (hp.near4 X.fl a), h5, fun a => X.encode' _ _ (hp.near6 X.fl a),
    fun a => X.encode' _ _ (hp.near7 X.fl a), X.encode' _ _ (hp.near8 X.fl), h9⟩
  intro x hx
  obtain ⟨i, -, rfl⟩ := List.mem_map.mp hx
  split_ifs
  · simpa using hp.one
  · simpa using hM0

omit [NeZero n] in
theorem MainKeys.data {prm : CPar C} {logN n numCompany : ℕ} [NeZero n] {rnd : MainRand C}
    {D B : ℤ} {η : ℝ} {ids : IDSet} {kb : KeyBag C} {pk : PublicKey C}
    (X : MainKeys E prm n logN numCompany rnd D B M η ids kb pk) {p : Hyper ℂ} (hp : HyperLe p M)
    {zc : CCt C} {z label : List ℂ}
    (hz : Fresh prm (fun id => (rnd.party id).s) (companies numCompany).toFinset η zc (toSlots n z))
    (hl : label.length = n) (h01 : ∀ y ∈ label, y = 0 ∨ y = 1) :
    DataRel (Fresh prm (fun id => (rnd.party id).s) (companies numCompany).toFinset η)
      (Encodes prm η) (mainData E prm p zc label) (dataSlots n p z label) := by
  exact ⟨hz, X.encode' _ _ (hp.near1 X.fl hl h01), fun a => X.encode' _ _ (hp.near2 X.fl hl h01 a)⟩

/-- The values a run goes through, without ciphertexts: level, scale and error of `trainVal` and
`inferVal`, and the plain training and prediction in their slots. -/
theorem main_values {cfg : MainCfg} [NeZero cfg.slotNum] {prm0 : CPar C} {logN : ℕ} {rnd : MainRand C}
    {data : List (List ℂ)} {labels : List ℂ} {r : ℚ} {K : ℕ} {D B : ℤ}
    (h : MainOk E prm0 logN cfg rnd data labels r K D B M ε δ) {prm : CPar C} (H : Chain prm r K)
    (hfl : prm.fl.Ok) (c : ℕ) (η : ℝ) {l : List ℂ} (ll : l.length = labels.length)
    (lt : ∀ i < cfg.numData, l.getD i 0 = target cfg.isCls (labels.getD i 0)) :
    ∃ z label row test,
      packZ cfg.slotNum cfg.numCol cfg.numFeature cfg.hp.batchSize data = .ok z ∧
      packLabel cfg.slotNum cfg.numCol cfg.hp.batchSize l = .ok label ∧
      idx data cfg.testId = .ok row ∧ packTest cfg.slotNum cfg.numFeature row = .ok test ∧
      z.length = cfg.slotNum ∧ (∀ x ∈ z, ‖x‖ ≤ M) ∧
      label.length = cfg.slotNum ∧ (∀ y ∈ label, y = 0 ∨ y = 1) ∧
      test.length = cfg.slotNum ∧ (∀ x ∈ test, ‖x‖ ≤ M) ∧
      (∀ t ≤ cfg.numIter, ∃ vb vv,
        trainVal prm cfg.slotNum c D 1 B η (constSlots cfg.slotNum cfg.numCol cfg.hp) cfg.numRow
          cfg.numCol (dataSlots cfg.slotNum cfg.hp z label) t 0 0 = some (vb, vv) ∧
        Replicated cfg.numCol vb.x (fun c => if c < cfg.numFeature then
          (plainTrain cfg data labels t).1 c else 0) ∧
        Replicated cfg.numCol vv.x (fun c => if c < cfg.numFeature then
          (plainTrain cfg data labels t).2 c else 0) ∧
        vb.lvl = C.nQ - 1 - 4 * t ∧ vv.lvl = C.nQ - 1 - 4 * t ∧ 0 < vb.scale ∧ 0 < vv.scale) ∧
      ∃ vb vv vr, trainVal prm cfg.slotNum c D 1 B η (constSlots cfg.slotNum cfg.numCol cfg.hp)
          cfg.numRow cfg.numCol (dataSlots cfg.slotNum cfg.hp z label) cfg.numIter 0 0 =
            some (vb, vv) ∧
        inferVal prm cfg.slotNum c D 1 B η (constSlots cfg.slotNum cfg.numCol cfg.hp)
          cfg.numFeature (toSlots cfg.slotNum test) vb = some vr ∧
        vr.x 0 = plainPredict cfg data labels ∧
        vr.lvl = C.nQ - 1 - 4 * cfg.numIter - 3 ∧ 0 < vr.scale := by
  obtain ⟨ra, hra⟩ := h.rows
  obtain ⟨cb, hcb⟩ := h.cols
  have hcols : 0 < cfg.numCol := by rw [hcb]; positivity
  have hM0 : 0 ≤ M := zero_le_one.trans h.hyper.one
  have hl01 : ∀ i < cfg.hp.batchSize, l.getD i 0 = 0 ∨ l.getD i 0 = 1 := by
    intro i hi
    rw [lt i (lt_of_lt_of_le hi h.batchData), target]
    split_ifs
    · exact Or.inr rfl
    · exact Or.inl rfl
  have hdB : cfg.hp.batchSize ≤ data.length := h.batchData.trans h.dataLen
  have hrowB : ∀ i < cfg.hp.batchSize, cfg.numFeature ≤ (data.getD i []).length := fun i hi =>
    h.rowLen i (lt_of_lt_of_le hi h.batchData)
  have hlB : cfg.hp.batchSize ≤ l.length := by rw [ll]; exact h.batchData.trans h.labelLen
  have tr := fun T => C39_lr (n := cfg.slotNum) hra hcb h.shape cfg.hp h.c3 h.feat h.batch hdB hrowB
    hlB T
  obtain ⟨z, label, ez, elb, -⟩ := tr 0
  obtain ⟨zl, zM⟩ := packZ_le h.shape h.batch h.feat hcols hdB hrowB hM0 h.dataLe ez
  obtain ⟨labl, lab01⟩ := packLabel_mem h.shape h.batch hcols hlB hl01 elb
  have htest : cfg.testId < data.length := lt_of_lt_of_le h.testId h.dataLen
  have hrowt : cfg.numFeature ≤ (data[cfg.testId]).length := by
    have := h.rowLen _ h.testId
    rwa [List.getD_eq_getElem _ _ htest] at this
  have hFn : cfg.numFeature ≤ cfg.slotNum := by
    rw [h.shape, hra]
    exact h.feat.trans (Nat.le_mul_of_pos_left _ (by positivity))
  have hg : grad cfg.hp cfg.numFeature cfg.hp.batchSize (entry data) (fun r => l.getD r 0) =
      grad cfg.hp cfg.numFeature cfg.hp.batchSize (entry data)
        (fun r => target cfg.isCls (labels.getD r 0)) := by
    funext v c
    unfold grad
    refine sum_congr rfl fun i hi => ?_
    show (_ - l.getD i 0) * _ = _
    rw [lt i (lt_of_lt_of_le (mem_range.mp hi) h.batchData)]
  have hlv := h.levels
  have hdr := h.drift
  have key : ∀ t ≤ cfg.numIter, ∃ vb vv,
        trainVal prm cfg.slotNum c D 1 B η (constSlots cfg.slotNum cfg.numCol cfg.hp) cfg.numRow
          cfg.numCol (dataSlots cfg.slotNum cfg.hp z label) t 0 0 = some (vb, vv) ∧
        HasMeta C prm.scale r vb (C.nQ - 1 - 4 * t, kAfter t) ∧
        HasMeta C prm.scale r vv (C.nQ - 1 - 4 * t, kAfter t) ∧
        Replicated cfg.numCol vb.x (fun c => if c < cfg.numFeature then
          (plainTrain cfg data labels t).1 c else 0) ∧
        Replicated cfg.numCol vv.x (fun c => if c < cfg.numFeature then
          (plainTrain cfg data labels t).2 c else 0) := by
    intro t ht
    have h3 : 3 ^ t ≤ 3 ^ cfg.numIter := Nat.pow_le_pow_right (by norm_num) ht
    obtain ⟨vb, vv, e3, m1, m2, e4⟩ := trainVal_spec H h.good hfl c D 1 B η
      (constSlots cfg.slotNum cfg.numCol cfg.hp) cfg.numRow cfg.numCol
      (dataSlots cfg.slotNum cfg.hp z label) (numIter := t) (by omega) (by unfold kAfter; omega) 0 0
    obtain ⟨z', label', ez', elb', beta, v, e5, r1, r2⟩ := tr t
    obtain rfl : z = z' := by rw [ez] at ez'; exact Except.ok.inj ez'
    obtain rfl : label = label' := by rw [elb] at elb'; exact Except.ok.inj elb'
    rw [e5] at e4
    have q1 : vb.x = beta := congrArg Prod.fst e4
    have q2 : vv.x = v := congrArg Prod.snd e4
    rw [hg] at r1 r2
    refine ⟨vb, vv, e3, m1, m2, ?_, ?_⟩
    · rw [q1]; exact r1
    · rw [q2]; exact r2
  obtain ⟨vb, vv, e1, m1, m2, r1, r2⟩ := key cfg.numIter le_rfl
  obtain ⟨test, et, ei⟩ := C41_infer (n := cfg.slotNum) (e := ra + cb)
    (by rw [h.shape, hra, hcb, pow_add]) cfg.hp h.c3 hFn hrowt r1 h.feat
  obtain ⟨tl, tM⟩ := packTest_le hFn hrowt hM0 (h.dataLe _ (List.getElem_mem htest)) et
  obtain ⟨vr, e2, m3, e3⟩ := inferVal_spec H h.good hfl c D 1 B η
    (constSlots cfg.slotNum cfg.numCol cfg.hp) cfg.numFeature (toSlots cfg.slotNum test) m1
    (by omega) (by unfold kAfter; omega)
  refine ⟨z, label, _, test, ez, elb, idx_of_lt htest, et, zl, zM, labl, lab01, tl, tM, ?_, vb, vv, vr,
    e1, e2, ?_, m3.1, m3.2.2.1⟩
  · intro t ht
    obtain ⟨vb, vv, e1, m1, m2, r1, r2⟩ := key t ht
    exact ⟨vb, vv, e1, r1, r2, m1.1, m2.1, m1.2.2.1, m2.2.2.1⟩
  · rw [e3]
    refine ei.trans ?_
    unfold plainPredict
    congr 1
    refine sum_congr rfl fun j hj => ?_
    rw [if_pos (mem_range.mp hj), entry, List.getD_eq_getElem _ _ htest]

omit [NeZero n] in
theorem packLabel_congr {cols B : ℕ} {l l' : List ℂ} (hn : B * cols ≤ n) (hc : 0 < cols)
    (hl : B ≤ l.length) (hl' : B ≤ l'.length) (h : ∀ i < B, l.getD i 0 = l'.getD i 0) :
    packLabel n cols B l = packLabel n cols B l' := by
  obtain ⟨z, e, h1, h2⟩ := packLabel_spec (slotNum := n) hn hl
  obtain ⟨z', e', h1', h2'⟩ := packLabel_spec (slotNum := n) hn hl'
  rw [e, e']
  congr 1
  refine List.ext_getElem (h1.trans h1'.symm) fun i hi hi' => ?_
  have e1 := h2 (i / cols) (i % cols) (Nat.mod_lt _ hc)
  have e2 := h2' (i / cols) (i % cols) (Nat.mod_lt _ hc)
  rw [Nat.div_add_mod, List.getD_eq_getElem _ _ hi] at e1
  rw [Nat.div_add_mod, List.getD_eq_getElem _ _ hi'] at e2
  rw [e1, e2]
  split_ifs with h3
  · exact h _ h3
  · rfl

/-- The list a packing loop makes. -/
def goGet (x : Go (List ℂ)) : List ℂ := match x with
  | .ok l => l
  | .error _ => []

/-- The packed data, labels and test record. -/
def mainZ (cfg : MainCfg) (data : List (List ℂ)) : List ℂ :=
  goGet (packZ cfg.slotNum cfg.numCol cfg.numFeature cfg.hp.batchSize data)

@[inherit_doc mainZ]
def mainLabel (cfg : MainCfg) (labels : List ℂ) : List ℂ :=
  goGet (packLabel cfg.slotNum cfg.numCol cfg.hp.batchSize (labels.map (target cfg.isCls)))

@[inherit_doc mainZ]
def mainTest (cfg : MainCfg) (data : List (List ℂ)) : List ℂ :=
  goGet (packTest cfg.slotNum cfg.numFeature (data.getD cfg.testId []))

/-- Level, scale, slots and error bound of `beta` and `v` after `t` iterations; `η` is the error of a
fresh ciphertext. -/
def mainTrainVal (prm : CPar C) (cfg : MainCfg) [NeZero cfg.slotNum] (data : List (List ℂ))
    (labels : List ℂ) (D B : ℤ) (η : ℝ) (t : ℕ) : Option (AVal cfg.slotNum × AVal cfg.slotNum) :=
  trainVal prm cfg.slotNum (companies cfg.numCompany).toFinset.card D 1 B η
    (constSlots cfg.slotNum cfg.numCol cfg.hp) cfg.numRow cfg.numCol
    (dataSlots cfg.slotNum cfg.hp (mainZ cfg data) (mainLabel cfg labels)) t 0 0

/-- The same of the result. -/
def mainInferVal (prm : CPar C) (cfg : MainCfg) [NeZero cfg.slotNum] (data : List (List ℂ))
    (labels : List ℂ) (D B : ℤ) (η : ℝ) : Option (AVal cfg.slotNum) := do
  let (vb, _) ← mainTrainVal prm cfg data labels D B η cfg.numIter
  inferVal prm cfg.slotNum (companies cfg.numCompany).toFinset.card D 1 B η
    (constSlots cfg.slotNum cfg.numCol cfg.hp) cfg.numFeature
    (toSlots cfg.slotNum (mainTest cfg data)) vb

/-- **C51 (lr.go).** For all data, labels, random samples, keys and iteration orders within
`MainOk`: `main` runs to its end.  In iteration `t` it prints the first two numbers of decodings of
polynomials holding the `t+1`-st Nesterov iterates (`beta` and `v`) of the plain training, up to the
error of `mainTrainVal`; its result is the decoding of a polynomial whose slot 0 holds the plain
prediction up to the error of `mainInferVal`; and `correct` is the comparison of that result with the
label.  Every decryption uses all moduli of its ciphertext's level: `4 (t+1)` below the top, and three
further for the result. -/
theorem C51_lr_main {prm0 : CPar C} {logN : ℕ} {cfg : MainCfg} [NeZero cfg.slotNum] {rnd : MainRand C}
    {data : List (List ℂ)} {labels : List ℂ} {r : ℚ} {K : ℕ} {D B : ℤ}
    (h : MainOk E prm0 logN cfg rnd data labels r K D B M ε δ) :
    ∃ out, lrMain E prm0 logN cfg rnd data labels = .ok out ∧ out.prints.length = cfg.numIter ∧
      (∀ t < cfg.numIter, ∃ vb vv bd vd,
        mainTrainVal (mainPar prm0 logN rnd) cfg data labels D B (freshErr C prm0.scale B ε) (t + 1) =
          some (vb, vv) ∧
        Replicated cfg.numCol vb.x (fun c => if c < cfg.numFeature then
          (plainTrain cfg data labels (t + 1)).1 c else 0) ∧
        Replicated cfg.numCol vv.x (fun c => if c < cfg.numFeature then
          (plainTrain cfg data labels (t + 1)).2 c else 0) ∧
        vb.lvl = C.nQ - 1 - 4 * (t + 1) ∧ vv.lvl = C.nQ - 1 - 4 * (t + 1) ∧
        0 < vb.scale ∧ 0 < vv.scale ∧
        Reads E vb bd ∧ Reads E vv vd ∧ out.prints[t]? = some (bd.take 2, vd.take 2)) ∧
      ∃ vr, mainInferVal (mainPar prm0 logN rnd) cfg data labels D B (freshErr C prm0.scale B ε) =
          some vr ∧
        vr.x 0 = plainPredict cfg data labels ∧
        vr.lvl = C.nQ - 1 - 4 * cfg.numIter - 3 ∧ 0 < vr.scale ∧ Reads E vr out.result ∧
        out.correct = verdict (out.result.getD 0 0).re (cfg.isCls (labels.getD cfg.testId 0).re) := by
  have hn2 := h.two
  have hM0 : 0 ≤ M := zero_le_one.trans h.hyper.one
  have hlv := h.levels
  have hdr := h.drift
  have hps : (mainPar prm0 logN rnd).scale = prm0.scale := rfl
  have hpf : (mainPar prm0 logN rnd).fl = prm0.fl := rfl
  have hpc : (mainPar prm0 logN rnd).crs = setupCRS logN rnd.sample rnd.sample' := rfl
  have hpe : { prm0 with crs := (mainPar prm0 logN rnd).crs } = mainPar prm0 logN rnd := rfl
  generalize mainPar prm0 logN rnd = prm at hps hpf hpc hpe ⊢
  have H : Chain prm r K := by
    have := h.chain
    exact ⟨this.one, this.pos, this.pow, by rw [hps]; exact this.scale, by rw [hps]; exact this.lo,
      by rw [hps]; exact this.hi⟩
  have hfl : prm.fl.Ok := by rw [hpf]; exact h.fl
  obtain ⟨l, el, ll, lt, -⟩ := relabel_spec cfg.isCls h.labelLen
  obtain ⟨ids, kb, pk, X⟩ := main_keys h.toRunOk hps hpf hpc
  rw [hps] at X
  obtain ⟨z, label, row, test, ez, elb, erow, et, zl, zM, labl, lab01, tl, tM, hval, vb, vv, vr, ev, ei,
    hvr, lvr, svr⟩ := main_values h H hfl (companies cfg.numCompany).toFinset.card
      (freshErr C prm0.scale B ε) ll lt
  have rep : ∀ c : ℂ, ‖c‖ ≤ M → ∀ x ∈ List.replicate cfg.slotNum c, ‖x‖ ≤ M := by
    intro c hc x hx
    rw [List.eq_of_mem_replicate hx]; exact hc
  have rl : ∀ c : ℂ, (List.replicate cfg.slotNum c).length = cfg.slotNum := fun c => by simp
  have rz : ∀ x ∈ List.replicate cfg.slotNum (0 : ℂ), ‖x‖ ≤ M := rep 0 (by simpa using hM0)
  have tz : toSlots cfg.slotNum (List.replicate cfg.slotNum (0 : ℂ)) = 0 := by
    funext i; rw [toSlots_replicate]; rfl
  obtain ⟨e1, beta, q1, o1, f1⟩ := X.enc1 (enc := CEnc.new prm) ⟨rfl, rfl⟩ 0 _
    (rl 0) rz
  obtain ⟨e2, v, q2, o2, f2⟩ := X.enc1 o1 1 _ (rl 0) rz
  obtain ⟨e3, zc, q3, o3, f3⟩ := X.encAll o2 1 2 z zl zM
  obtain ⟨e4, c5, q4, o4, f4⟩ := X.enc1' o3 3 _ _ (h.hyper.near5 X.fl)
  obtain ⟨e5, c9, q5, o5, f5⟩ := X.enc1' o4 4 _ _ (h.hyper.near9 X.fl)
  rw [hpf] at q4 q5
  obtain ⟨e6, ct, q6, -, f6⟩ := X.encAll o5 2 5 test tl tM
  rw [tz] at f1 f2
  have hk := X.consts h.hyper cfg.numCol f4 f5
  have hd := X.data h.hyper f3 labl lab01
  obtain ⟨st, vb', vv', t1, t2, t3, t4, t5, t6, t7, t8, t9, t10⟩ := trainLoop_spec X.setup H h.accurate
    hn2 X.keyed X.sk hk cfg.numRow cfg.numCol hd f1 f2 rnd.sch rnd.dec X.mach cfg.numIter (by omega)
    (by omega)
  obtain ⟨rfl, rfl⟩ : vb = vb' ∧ vv = vv' := by
    rw [ev] at t4
    simpa using t4
  obtain ⟨res, m', g1, g2, g3⟩ := infer_sim (realHE_sim X.setup rnd.sch) (constsShow hk) cfg.numFeature
    f6 t5 _ ei st.mach t3
  have g3 : Shows (fun id => (rnd.party id).s) (companies cfg.numCompany).toFinset res vr := g3
  obtain ⟨dec', o, d1, -, -, d4⟩ := decrypt_shows h.good E t7 g3 (by omega) X.keyed X.sk
    (rnd.dec (2 * cfg.numIter))
  have ol : 0 < o.length := by
    obtain ⟨m, -, rfl⟩ := d4
    rw [h.accurate.len]; omega
  have tl' : cfg.testId < l.length := by rw [ll]; exact lt_of_lt_of_le h.testId h.labelLen
  have htest : cfg.testId < data.length := lt_of_lt_of_le h.testId h.dataLen
  have hrow : row = data.getD cfg.testId [] := by
    rw [idx_of_lt htest] at erow
    rw [List.getD_eq_getElem _ _ htest]
    exact (Except.ok.inj erow).symm
  obtain ⟨cb, hcb⟩ := h.cols
  have hz : mainZ cfg data = z := by rw [mainZ, ez]; rfl
  have hlab : mainLabel cfg labels = label := by
    rw [mainLabel, ← packLabel_congr (l := l), elb]
    · rfl
    · rw [h.shape]; exact Nat.mul_le_mul_right _ h.batch
    · rw [hcb]; positivity
    · rw [ll]; exact h.batchData.trans h.labelLen
    · rw [List.length_map]; exact h.batchData.trans h.labelLen
    · intro i hi
      have hi' : i < labels.length := lt_of_lt_of_le hi (h.batchData.trans h.labelLen)
      rw [lt i (lt_of_lt_of_le hi h.batchData), List.getD_eq_getElem _ _ hi',
        List.getD_eq_getElem _ _ (by simpa using hi'), List.getElem_map]
  have htst : mainTest cfg data = test := by rw [mainTest, ← hrow, et]; rfl
  refine ⟨⟨st.prints, o, judge (o.getD 0 0) (l.getD cfg.testId 0)⟩, ?_, t9, ?_, vr, ?_, hvr, lvr, svr,
    d4, ?_⟩
  · unfold lrMain
    simp only [el, X.ids_eq, X.gen, hpe, X.pk_eq, q1, q2, q3, ez, elb, q4, q5, Go.ok_bind]
    erw [t1]
    simp only [Go.ok_bind, erow, et, q6]
    erw [g1]
    simp only [Go.ok_bind, d1, idx_of_lt ol, idx_of_lt tl', Go.pure_eq]
    rw [List.getD_eq_getElem _ _ ol, List.getD_eq_getElem _ _ tl']
  · intro t ht
    obtain ⟨wb, wv, bd, vd, a1, a2, a3, a4⟩ := t10 t ht
    obtain ⟨wb', wv', b1, b2⟩ := hval (t + 1) (by omega)
    obtain ⟨rfl, rfl⟩ : wb = wb' ∧ wv = wv' := by
      rw [a1] at b1
      simpa using b1
    exact ⟨wb, wv, bd, vd, by rw [mainTrainVal, hz, hlab]; exact a1, b2.1, b2.2.1, b2.2.2.1, b2.2.2.2.1, b2.2.2.2.2.1, b2.2.2.2.2.2, a2, a3, a4⟩
  · rw [mainInferVal, mainTrainVal, hz, hlab, htst, ev]
    exact ei
  · rw [lt _ h.testId, judge_target]

/-- A printed number is close to the entry that its slot holds. -/
theorem Reads.print {logN : ℕ} (hN : C.N = 2 ^ logN) (hlog : 1 ≤ logN) (hn : C.N / 2 = n)
    (hE : E.Accurate prm.scale n M ε δ) {v : AVal n} (hs : 0 < v.scale) {out : List ℂ}
    (h : Reads E v out) (hv : v.In C M) {w F c : ℕ} {f : ℕ → ℂ}
    (hr : Replicated w v.x fun c => if c < F then f c else 0) (hw : F ≤ w) (h2 : 2 ≤ n) (hc : c < 2)
    (hF : c < F) : ‖(out.take 2).getD c 0 - f c‖ ≤ v.err + δ := by
  have e : ((c : ZMod n)).val = c := ZMod.val_cast_of_lt (by omega)
  have tk : (out.take 2).getD c 0 = out.getD c 0 := by simp [List.getD_eq_getElem?_getD, hc]
  have x1 := hr (c : ZMod n)
  simp only [e, Nat.mod_eq_of_lt (lt_of_lt_of_le hF hw), if_pos hF] at x1
  have := h.close hN hlog hn hE hs hv (c : ZMod n)
  rwa [e, x1, ← tk] at this

/-- **C51 (accuracy).** When the described values and their errors stay below `M` and `M` times twice
the scale below the modulus of their level, every printed number is within error of the plain
iterate, the result is within error of the plain prediction, and `correct` is what the plain
prediction gives unless that lies within the error of the threshold `1/2`. -/
theorem C51_accuracy {prm0 : CPar C} {logN : ℕ} {cfg : MainCfg} [NeZero cfg.slotNum]
    {rnd : MainRand C} {data : List (List ℂ)} {labels : List ℂ} {r : ℚ} {K : ℕ} {D B : ℤ}
    (h : MainOk E prm0 logN cfg rnd data labels r K D B M ε δ) {out : MainOut}
    (ho : lrMain E prm0 logN cfg rnd data labels = .ok out) :
    (∀ t < cfg.numIter, ∀ vb vv,
      mainTrainVal (mainPar prm0 logN rnd) cfg data labels D B (freshErr C prm0.scale B ε) (t + 1) =
        some (vb, vv) → ∃ pb pv, out.prints[t]? = some (pb, pv) ∧ pb.length = 2 ∧ pv.length = 2 ∧
      ∀ c < 2, c < cfg.numFeature →
        (vb.In C M → ‖pb.getD c 0 - (plainTrain cfg data labels (t + 1)).1 c‖ ≤ vb.err + δ) ∧
        (vv.In C M → ‖pv.getD c 0 - (plainTrain cfg data labels (t + 1)).2 c‖ ≤ vv.err + δ)) ∧
    ∀ vr, mainInferVal (mainPar prm0 logN rnd) cfg data labels D B (freshErr C prm0.scale B ε) =
        some vr → vr.In C M →
      ‖out.result.getD 0 0 - plainPredict cfg data labels‖ ≤ vr.err + δ ∧
      (vr.err + δ < |(plainPredict cfg data labels).re - 1 / 2| →
        out.correct = verdict (plainPredict cfg data labels).re
          (cfg.isCls (labels.getD cfg.testId 0).re)) := by
  obtain ⟨out', ho', -, hpr, vr', ei, hx, -, hs, hR, hc⟩ := C51_lr_main h
  obtain rfl : out' = out := by rw [ho] at ho'; exact (Except.ok.inj ho').symm
  refine ⟨fun t ht vb vv hv => ?_, fun vr hv hin => ?_⟩
  · obtain ⟨vb', vv', bd, vd, e1, r1, r2, -, -, s1, s2, R1, R2, e2⟩ := hpr t ht
    obtain ⟨rfl, rfl⟩ : vb = vb' ∧ vv = vv' := by rw [hv] at e1; simpa using e1
    have len : ∀ {v : AVal cfg.slotNum} {o : List ℂ}, Reads E v o → o.length = cfg.slotNum := by
      rintro v o ⟨m, -, rfl⟩
      rw [h.accurate.len]
    have hn2 := h.two
    refine ⟨_, _, e2, by simp [len R1, hn2], by simp [len R2, hn2], fun c hc hF => ?_⟩
    exact ⟨fun hin => R1.print h.N_eq h.logN_pos h.slots.symm h.accurate s1 hin r1 h.feat hn2 hc hF,
      fun hin => R2.print h.N_eq h.logN_pos h.slots.symm h.accurate s2 hin r2 h.feat hn2 hc hF⟩
  · obtain rfl : vr = vr' := by rw [hv] at ei; simpa using ei
    have h1 := hR.close h.N_eq h.logN_pos h.slots.symm h.accurate hs hin 0
    rw [ZMod.val_zero, hx] at h1
    exact ⟨h1, fun hm => by rw [hc]; exact verdict_of_close h1 hm⟩

end MK.Lr
