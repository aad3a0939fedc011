import Verif.Word
import Verif.KeySwitchSpec
import Mathlib.FieldTheory.Finite.Basic

/-!
# Correctness of the word-level building blocks
-/

namespace MK.Word

open Finset

/-! ## Words -/

theorem montR_pos : 0 < montR := by unfold montR; norm_num

theorem wsub_eq {a b : ℕ} (hb : b ≤ a) (ha : a < montR) : wsub a b = a - b := by
  unfold wsub
  rw [Nat.mod_eq_of_lt (lt_of_le_of_lt hb ha), show a + (montR - b) = (a - b) + montR by omega,
    Nat.add_mod_right, Nat.mod_eq_of_lt (by omega)]

theorem wadd_eq {a b : ℕ} (h : a + b < montR) : wadd a b = a + b := Nat.mod_eq_of_lt h

/-- `a - b + c` with `b ≤ a + c`. -/
theorem wadd_wsub {a b c : ℕ} (hb : b < montR) (h : b ≤ a + c) (h2 : a + c - b < montR) :
    wadd (wsub a b) c = a + c - b := by
  unfold wadd wsub
  rw [Nat.mod_add_mod, Nat.mod_eq_of_lt hb, show a + (montR - b) + c = (a + c - b) + montR by omega,
    Nat.add_mod_right, Nat.mod_eq_of_lt h2]

/-- `q * qInv = 1` on words. -/
theorem MRedParams_spec {q : ℕ} (hq : q.Coprime montR) : q * MRedParams q % montR = 1 := by
  have : NeZero montR := ⟨montR_pos.ne'⟩
  have h := ZMod.coe_mul_inv_eq_one q hq
  unfold MRedParams
  have h2 : ((q * ((q : ZMod montR)⁻¹).val : ℕ) : ZMod montR) = ((1 : ℕ) : ZMod montR) := by
    rw [Nat.cast_mul, ZMod.natCast_zmod_val, h, Nat.cast_one]
  rw [ZMod.natCast_eq_natCast_iff] at h2
  rw [h2]
  unfold montR; norm_num

/-- Montgomery's reduction step: with `S = hi·2^64 + lo` and `h = ⌊(lo·q^{-1} mod 2^64)·q / 2^64⌋`,
`hi - h` is `S / 2^64` modulo `q`, and `h < q`. -/
theorem mont_core {q : ℕ} (hq : q.Coprime montR) (hq0 : 0 < q) (hi lo : ℕ) (hlo : lo < montR) :
    (mul64 (wmul lo (MRedParams q)) q).1 < q ∧
    ((hi : ZMod q) - ((mul64 (wmul lo (MRedParams q)) q).1 : ZMod q)) =
      ((hi * montR + lo : ℕ) : ZMod q) * (montR : ZMod q)⁻¹ := by
  set m := wmul lo (MRedParams q) with hm
  have hmR : m < montR := Nat.mod_lt _ montR_pos
  have hmod : m * q % montR = lo := by
    rw [hm, wmul, Nat.mod_mul_mod, mul_assoc, mul_comm _ q, Nat.mul_mod, MRedParams_spec hq, mul_one,
      Nat.mod_mod, Nat.mod_eq_of_lt hlo]
  have hdiv := Nat.div_add_mod (m * q) montR
  rw [hmod] at hdiv
  refine ⟨?_, ?_⟩
  · show m * q / montR < q
    rw [Nat.div_lt_iff_lt_mul montR_pos, mul_comm q]
    exact Nat.mul_lt_mul_of_pos_right hmR hq0
  · show (hi : ZMod q) - ((m * q / montR : ℕ) : ZMod q) = _
    have h1 : (montR : ZMod q) * ((m * q / montR : ℕ) : ZMod q) + (lo : ZMod q) = 0 := by
      have : ((montR * (m * q / montR) + lo : ℕ) : ZMod q) = ((m * q : ℕ) : ZMod q) := by rw [hdiv]
      push_cast at this
      rw [this, ZMod.natCast_self, mul_zero]
    have hinv : (montR : ZMod q) * (montR : ZMod q)⁻¹ = 1 := ZMod.coe_mul_inv_eq_one montR hq.symm
    have h2 : ((hi : ZMod q) - ((m * q / montR : ℕ) : ZMod q)) * montR = (hi * montR + lo : ℕ) := by
      push_cast
      linear_combination -h1
    rw [← h2, mul_assoc, hinv, mul_one]

/-- `MRed` computes `x·y·2^{-64} mod q`, fully reduced, for all words with `x·y < q·2^64`. -/
theorem MRed_spec {x y q : ℕ} (hq : q.Coprime montR) (hq2 : 2 * q ≤ montR) (hq0 : 0 < q)
    (h : x * y < q * montR) :
    MRed x y q (MRedParams q) < q ∧
      (MRed x y q (MRedParams q) : ZMod q) = (x : ZMod q) * y * (montR : ZMod q)⁻¹ := by
  obtain ⟨h1, h2⟩ := mont_core hq hq0 (mul64 x y).1 (mul64 x y).2 (Nat.mod_lt _ montR_pos)
  set hhi := (mul64 (wmul (mul64 x y).2 (MRedParams q)) q).1 with hh
  have hmhi : (mul64 x y).1 < q := by
    show x * y / montR < q
    rwa [Nat.div_lt_iff_lt_mul montR_pos]
  have hxy : (mul64 x y).1 * montR + (mul64 x y).2 = x * y := by
    show x * y / montR * montR + x * y % montR = x * y
    rw [mul_comm]; exact Nat.div_add_mod _ _
  rw [hxy] at h2
  have e : wadd (wsub (mul64 x y).1 hhi) q = (mul64 x y).1 + q - hhi :=
    wadd_wsub (by omega) (by omega) (by omega)
  have hval : (((mul64 x y).1 + q - hhi : ℕ) : ZMod q) = (x : ZMod q) * y * (montR : ZMod q)⁻¹ := by
    rw [Nat.cast_sub (by omega)]
    push_cast
    rw [ZMod.natCast_self, add_zero, h2]
    push_cast; ring
  unfold MRed
  simp only [← hh, e]
  split
  · rename_i hge
    rw [wsub_eq hge (by omega)]
    refine ⟨by omega, ?_⟩
    rw [Nat.cast_sub hge, ZMod.natCast_self, sub_zero, hval]
  · exact ⟨by omega, hval⟩

theorem MForm_lt {a q : ℕ} (hq : 0 < q) : MForm a q < q := Nat.mod_lt _ hq

theorem MForm_cast (a q : ℕ) : (MForm a q : ZMod q) = (a : ZMod q) * montR := by
  unfold MForm
  rw [ZMod.natCast_mod]
  push_cast; ring

/-- `CRed` after one addition. -/
theorem CRed_spec {a q : ℕ} (h : a < 2 * q) (h2 : a < montR) :
    CRed a q < q ∧ (CRed a q : ZMod q) = a := by
  unfold CRed
  split
  · rename_i hge
    rw [wsub_eq hge h2]
    exact ⟨by omega, by rw [Nat.cast_sub hge, ZMod.natCast_self, sub_zero]⟩
  · exact ⟨by omega, rfl⟩

/-! ## Loops and slices -/

theorem idx_of_lt {α : Type _} {l : List α} {i : ℕ} (h : i < l.length) : idx l i = .ok l[i] := by
  unfold idx; rw [List.getElem?_eq_getElem h]

theorem idx_of_get? {α : Type _} {l : List α} {i : ℕ} {a : α} (h : l[i]? = some a) :
    idx l i = .ok a := by unfold idx; rw [h]

theorem idx_panics {α : Type _} {l : List α} {i : ℕ} (h : l.length ≤ i) :
    idx l i = .error .indexRange := by
  unfold idx; rw [List.getElem?_eq_none h]

theorem upd_of_lt {α : Type _} {l : List α} {i : ℕ} (h : i < l.length) (a : α) :
    upd l i a = .ok (l.set i a) := by simp [upd, h]

theorem sliceTo_of_le {α : Type _} {l : List α} {n : ℕ} (h : n ≤ l.length) :
    sliceTo l n = .ok (l.take n) := by simp [sliceTo, h]

theorem forEach_append {α σ : Type _} (a b : List α) (body : α → σ → Go σ) (s : σ) :
    forEach (a ++ b) body s = (do let s ← forEach a body s; forEach b body s) := by
  induction a generalizing s with
  | nil => rfl
  | cons x a ih =>
    simp only [List.cons_append, forEach]
    cases body x s with
    | error e => rfl
    | ok s' => simp only [Go.ok_bind]; exact ih s'

theorem forEach_range {σ : Type _} (n : ℕ) (body : ℕ → σ → Go σ) (Inv : ℕ → σ → Prop) (s : σ)
    (h0 : Inv 0 s) (step : ∀ i s, i < n → Inv i s → ∃ s', body i s = .ok s' ∧ Inv (i + 1) s') :
    ∃ s', forEach (List.range n) body s = .ok s' ∧ Inv n s' := by
  induction n with
  | zero => exact ⟨s, rfl, h0⟩
  | succ n ih =>
    obtain ⟨s1, e1, h1⟩ := ih fun i s hi => step i s (by omega)
    obtain ⟨s2, e2, h2⟩ := step n s1 (by omega) h1
    refine ⟨s2, ?_, h2⟩
    rw [List.range_succ, forEach_append, e1]
    simp only [Go.ok_bind, forEach, e2]

/-- A loop over `0 … n-1` whose iteration `i` replaces entry `i`. -/
theorem forEach_set {n : ℕ} {body : ℕ → List ℕ → Go (List ℕ)} {P : ℕ → ℕ → Prop} {l : List ℕ}
    (hl : n ≤ l.length)
    (step : ∀ i l', i < n → l'.length = l.length → ∃ r, body i l' = .ok (l'.set i r) ∧ P i r) :
    ∃ l', forEach (List.range n) body l = .ok l' ∧ l'.length = l.length ∧
      (∀ i < n, ∃ r, l'[i]? = some r ∧ P i r) ∧ ∀ i, n ≤ i → l'[i]? = l[i]? := by
  obtain ⟨l', e, h1, h2, h3⟩ := forEach_range n body (fun k l' => l'.length = l.length ∧
    (∀ i < k, ∃ r, l'[i]? = some r ∧ P i r) ∧ ∀ i, k ≤ i → l'[i]? = l[i]?) l
    ⟨rfl, fun i hi => absurd hi (by omega), fun i _ => rfl⟩ (by
      rintro i l1 hi ⟨a1, a2, a3⟩
      obtain ⟨r, e, hr⟩ := step i l1 hi a1
      refine ⟨_, e, by rw [List.length_set, a1], fun k hk => ?_, fun k hk => ?_⟩
      · rcases Nat.lt_succ_iff_lt_or_eq.mp hk with h | h
        · rw [List.getElem?_set_ne (by omega)]; exact a2 k h
        · subst h
          exact ⟨r, by rw [List.getElem?_set_self (by omega)], hr⟩
      · rw [List.getElem?_set_ne (by omega)]; exact a3 k (by omega))
  exact ⟨l', e, h1, h2, h3⟩

/-! ## Tables -/

/-- A modulus accepted by lattigo: an odd prime below `2^61`. -/
structure Modulus (q : ℕ) : Prop where
  prime : q.Prime
  odd : q ≠ 2
  lt : q < 2 ^ 61

namespace Modulus

variable {q : ℕ} (h : Modulus q)
include h

theorem pos : 0 < q := h.prime.pos

theorem coprime : q.Coprime montR :=
  Nat.Coprime.pow_right 64 ((Nat.coprime_primes h.prime Nat.prime_two).mpr h.odd)

theorem two_le : 2 * q ≤ montR := by
  have := h.lt
  unfold montR; omega

theorem lt_montR : q < montR := by
  have := h.two_le
  have := h.pos
  omega

theorem inv : (montR : ZMod q) * (montR : ZMod q)⁻¹ = 1 := ZMod.coe_mul_inv_eq_one montR h.coprime.symm

/-- Multiplication by a Montgomery form. -/
theorem MRed_MForm {a : ℕ} (ha : a < montR) (b : ℕ) :
    MRed a (MForm b q) q (MRedParams q) < q ∧
      (MRed a (MForm b q) q (MRedParams q) : ZMod q) = (a : ZMod q) * b := by
  have hlt : a * MForm b q < q * montR := by
    have := MForm_lt (a := b) h.pos
    calc a * MForm b q ≤ a * q := Nat.mul_le_mul_left _ this.le
      _ < montR * q := Nat.mul_lt_mul_of_pos_right ha h.pos
      _ = q * montR := mul_comm _ _
  obtain ⟨h1, h2⟩ := MRed_spec h.coprime h.two_le h.pos hlt
  refine ⟨h1, ?_⟩
  rw [h2, MForm_cast]
  linear_combination ((a : ZMod q) * b) * h.inv

end Modulus

/-- The moduli of a list as a function (continued by `1`). -/
def fam (Q : List ℕ) (i : ℕ) : ℕ := Q.getD i 1

theorem fam_of_lt {Q : List ℕ} {i : ℕ} (h : i < Q.length) : fam Q i = Q[i] := by
  unfold fam; rw [List.getD_eq_getElem _ _ h]

theorem getD_eq_fam {Q : List ℕ} {i : ℕ} (h : i < Q.length) (d : ℕ) : Q.getD i d = fam Q i := by
  rw [fam_of_lt h, List.getD_eq_getElem _ _ h]

theorem get?_fam {Q : List ℕ} {i : ℕ} (h : i < Q.length) : Q[i]? = some (fam Q i) := by
  rw [List.getElem?_eq_getElem h, fam_of_lt h]

theorem fam_mem {Q : List ℕ} {i : ℕ} (h : i < Q.length) : fam Q i ∈ Q := by
  rw [fam_of_lt h]; exact List.getElem_mem h

theorem fam_pos {Q : List ℕ} (hQ : ∀ q ∈ Q, Modulus q) (i : ℕ) : 0 < fam Q i := by
  by_cases h : i < Q.length
  · exact (hQ _ (fam_mem h)).pos
  · unfold fam; rw [List.getD_eq_default _ _ (by omega)]; norm_num

theorem fam_coprime {Q : List ℕ} (hQ : ∀ q ∈ Q, Modulus q) (hn : Q.Nodup) (i j : ℕ)
    (hi : i < Q.length) (hj : j < Q.length) (hij : i ≠ j) : (fam Q i).Coprime (fam Q j) := by
  refine (Nat.coprime_primes (hQ _ (fam_mem hi)).prime (hQ _ (fam_mem hj)).prime).mpr ?_
  rw [fam_of_lt hi, fam_of_lt hj]
  exact fun h => hij ((hn.getElem_inj_iff).mp h)

theorem qiStar_spec {p : ℕ} (hp : Modulus p) {Q : List ℕ} (hQ : ∀ q ∈ Q, Modulus q) {i : ℕ}
    (hi : i < Q.length) {acc : ℕ} (ha : acc < montR) :
    qiStar Q i p acc < montR ∧
      (qiStar Q i p acc : ZMod p) = (acc : ZMod p) * (baseQuot (fam Q) Q.length i : ℕ) := by
  have gen : ∀ n ≤ Q.length, (List.range n).foldl (fun acc j => if j ≠ i then
      MRed acc (MForm (Q.getD j 0) p) p (MRedParams p) else acc) acc < montR ∧
    (((List.range n).foldl (fun acc j => if j ≠ i then
      MRed acc (MForm (Q.getD j 0) p) p (MRedParams p) else acc) acc : ℕ) : ZMod p) =
      (acc : ZMod p) * ((∏ j ∈ (range n).erase i, fam Q j : ℕ) : ZMod p) := by
    intro n
    induction n with
    | zero => intro _; simp [ha]
    | succ n ih =>
      intro hn
      obtain ⟨h1, h2⟩ := ih (by omega)
      rw [List.range_succ, List.foldl_append]
      set r := (List.range n).foldl (fun acc j => if j ≠ i then
        MRed acc (MForm (Q.getD j 0) p) p (MRedParams p) else acc) acc
      simp only [List.foldl_cons, List.foldl_nil]
      rw [Finset.range_add_one]
      by_cases hni : n = i
      · subst hni
        rw [if_neg (by simp), Finset.erase_insert (by simp)]
        refine ⟨h1, ?_⟩
        rw [h2, Finset.erase_eq_of_notMem (by simp)]
      · rw [if_pos hni, getD_eq_fam (by omega)]
        obtain ⟨h3, h4⟩ := hp.MRed_MForm h1 (fam Q n)
        refine ⟨h3.trans hp.lt_montR, ?_⟩
        rw [h4, h2, Finset.erase_insert_of_ne (by omega), Finset.prod_insert (by simp)]
        push_cast; ring
  obtain ⟨h1, h2⟩ := gen Q.length le_rfl
  refine ⟨h1, ?_⟩
  rw [baseQuot_eq (fam_pos hQ) hi]
  exact h2

/-- `qoverqiinvqi[i] = (Q/q_i)^{-1}·2^64 mod q_i`. -/
theorem qoverqiinvqi_spec {Q P : List ℕ} (hQ : ∀ q ∈ Q, Modulus q) (hn : Q.Nodup) {i : ℕ}
    (hi : i < Q.length) :
    ∃ c, (basisextenderparameters Q P).qoverqiinvqi[i]? = some c ∧ c < fam Q i ∧
      (c : ZMod (fam Q i)) = ((baseQuot (fam Q) Q.length i : ℕ) : ZMod (fam Q i))⁻¹ * montR := by
  have hm := hQ _ (fam_mem hi)
  have : Fact (fam Q i).Prime := ⟨hm.prime⟩
  refine ⟨ModexpMontgomery (qiStar Q i (fam Q i) (MForm 1 (fam Q i))) (fam Q i - 2) (fam Q i), ?_, ?_, ?_⟩
  · unfold basisextenderparameters
    dsimp only
    rw [List.getElem?_map, List.getElem?_range hi]
    simp only [Option.map_some]
    rw [getD_eq_fam hi]
  · exact ZMod.val_lt _
  · unfold ModexpMontgomery
    rw [ZMod.natCast_zmod_val]
    obtain ⟨_, h2⟩ := qiStar_spec hm hQ hi (acc := MForm 1 (fam Q i))
      ((MForm_lt hm.pos).trans hm.lt_montR)
    rw [h2, MForm_cast]
    set b := ((baseQuot (fam Q) Q.length i : ℕ) : ZMod (fam Q i)) with hb
    have hne : b ≠ 0 := by
      rw [hb, Ne, ZMod.natCast_eq_zero_iff]
      intro hd
      have hc := coprime_baseQuot (fam_pos hQ) (fam_coprime hQ hn) hi
      have := Nat.Coprime.eq_one_of_dvd hc.symm hd
      exact hm.prime.one_lt.ne' this
    have e : ((1 : ℕ) : ZMod (fam Q i)) * montR * b * (montR : ZMod (fam Q i))⁻¹ = b := by
      push_cast
      linear_combination b * hm.inv
    rw [e]
    congr 1
    have hp2 := hm.prime.two_le
    have h1 : b ^ (fam Q i - 2) * b = 1 := by
      rw [← pow_succ, show fam Q i - 2 + 1 = fam Q i - 1 by omega]
      exact ZMod.pow_card_sub_one_eq_one hne
    exact eq_inv_of_mul_eq_one_left h1

/-- `qoverqimodp[j][i] = (Q/q_i)·2^64 mod p_j`. -/
theorem qoverqimodp_spec {Q P : List ℕ} (hQ : ∀ q ∈ Q, Modulus q) (hP : ∀ p ∈ P, Modulus p) {j : ℕ}
    (hj : j < P.length) :
    ∃ w, (basisextenderparameters Q P).qoverqimodp[j]? = some w ∧ w.length = Q.length ∧
      ∀ i < Q.length, ∃ c, w[i]? = some c ∧ c < fam P j ∧
        (c : ZMod (fam P j)) = ((baseQuot (fam Q) Q.length i : ℕ) : ZMod (fam P j)) * montR := by
  have hm := hP _ (fam_mem hj)
  refine ⟨(List.range Q.length).map fun i => MForm (qiStar Q i (fam P j) 1) (fam P j), ?_, by simp, ?_⟩
  · unfold basisextenderparameters
    dsimp only
    rw [List.getElem?_map, get?_fam hj]
    rfl
  · intro i hi
    refine ⟨MForm (qiStar Q i (fam P j) 1) (fam P j), ?_, MForm_lt hm.pos, ?_⟩
    · rw [List.getElem?_map, List.getElem?_range hi]; rfl
    · rw [MForm_cast, (qiStar_spec hm hQ hi (acc := 1) (by unfold montR; norm_num)).2]
      push_cast; ring

theorem foldl_MRed {p : ℕ} (hp : Modulus p) (Q : List ℕ) : ∀ acc, acc < p →
    Q.foldl (fun acc qi => MRed acc (MForm qi p) p (MRedParams p)) acc < p ∧
      ((Q.foldl (fun acc qi => MRed acc (MForm qi p) p (MRedParams p)) acc : ℕ) : ZMod p) =
        (acc : ZMod p) * ((Q.prod : ℕ) : ZMod p) := by
  induction Q with
  | nil => intro acc h; simp [h]
  | cons q Q ih =>
    intro acc h
    obtain ⟨h1, h2⟩ := hp.MRed_MForm (h.trans hp.lt_montR) q
    obtain ⟨h3, h4⟩ := ih _ h1
    refine ⟨h3, ?_⟩
    rw [List.foldl_cons, h4, h2, List.prod_cons]
    push_cast; ring

theorem prod_eq_baseProd (Q : List ℕ) : Q.prod = baseProd (fam Q) Q.length := by
  induction Q with
  | nil => rfl
  | cons q Q ih =>
    rw [List.prod_cons, List.length_cons, baseProd, Finset.prod_range_succ', ih, mul_comm]
    rfl

/-- `vtimesqmodp[j][k] = -k·Q mod p_j`, for `k` up to the number of source primes. -/
theorem vtimesqmodp_spec {Q P : List ℕ} (hP : ∀ p ∈ P, Modulus p) {j : ℕ} (hj : j < P.length) :
    ∃ t, (basisextenderparameters Q P).vtimesqmodp[j]? = some t ∧ t.length = Q.length + 1 ∧
      ∀ k ≤ Q.length, ∃ c, t[k]? = some c ∧ c < fam P j ∧
        (c : ZMod (fam P j)) = -((k : ZMod (fam P j)) * ((baseProd (fam Q) Q.length : ℕ) : ZMod (fam P j))) := by
  have hm := hP _ (fam_mem hj)
  refine ⟨vTable Q (fam P j), ?_, ?_⟩
  · unfold basisextenderparameters
    dsimp only
    rw [List.getElem?_map, get?_fam hj]
    rfl
  · set p := fam P j with hp
    obtain ⟨h1, h2⟩ := foldl_MRed hm Q 1 hm.prime.one_lt
    set m := Q.foldl (fun acc qi => MRed acc (MForm qi p) p (MRedParams p)) 1 with hmd
    have hv : wsub p m = p - m := wsub_eq h1.le hm.lt_montR
    have hvc : ((wsub p m : ℕ) : ZMod p) = -((baseProd (fam Q) Q.length : ℕ) : ZMod p) := by
      rw [hv, Nat.cast_sub h1.le, ZMod.natCast_self, h2, prod_eq_baseProd]
      push_cast; ring
    have gen : ∀ n, ((List.range n).foldl (fun t _ => t ++ [CRed (wadd (t.getLastD 0) (wsub p m)) p])
          [0]).length = n + 1 ∧ ∀ k ≤ n, ∃ c, ((List.range n).foldl
            (fun t _ => t ++ [CRed (wadd (t.getLastD 0) (wsub p m)) p]) [0])[k]? = some c ∧ c < p ∧
        (c : ZMod p) = -((k : ZMod p) * ((baseProd (fam Q) Q.length : ℕ) : ZMod p)) := by
      intro n
      induction n with
      | zero =>
        refine ⟨rfl, fun k hk => ⟨0, ?_, hm.pos, ?_⟩⟩
        · rw [show k = 0 by omega]; rfl
        · rw [show k = 0 by omega]; simp
      | succ n ih =>
        obtain ⟨l1, l2⟩ := ih
        rw [List.range_succ, List.foldl_append]
        set t := (List.range n).foldl (fun t _ => t ++ [CRed (wadd (t.getLastD 0) (wsub p m)) p]) [0]
        simp only [List.foldl_cons, List.foldl_nil]
        refine ⟨by rw [List.length_append, l1]; rfl, fun k hk => ?_⟩
        rcases Nat.lt_or_ge k (n + 1) with h | h
        · rw [List.getElem?_append_left (by omega)]
          exact l2 k (by omega)
        · obtain rfl : k = n + 1 := by omega
          obtain ⟨c, c1, c2, c3⟩ := l2 n le_rfl
          have hlast : t.getLastD 0 = c := by
            rw [List.getLastD_eq_getLast?, List.getLast?_eq_getElem?, l1, Nat.add_sub_cancel, c1]
            rfl
          have hle := hm.two_le
          have hadd : wadd c (wsub p m) = c + (p - m) := by
            rw [hv]; exact wadd_eq (by omega)
          refine ⟨CRed (wadd c (wsub p m)) p, ?_, ?_⟩
          · rw [List.getElem?_append_right (by omega), l1, hlast]; simp
          · obtain ⟨d1, d2⟩ := CRed_spec (a := wadd c (wsub p m)) (q := p) (by rw [hadd]; omega)
              (by rw [hadd]; omega)
            refine ⟨d1, ?_⟩
            rw [d2, hadd, ← hv, Nat.cast_add, c3, hvc]
            push_cast; ring
    exact gen Q.length

end MK.Word
