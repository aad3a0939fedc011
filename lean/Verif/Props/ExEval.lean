import Verif.Props.ExKeySwitch
import Verif.Props.History

/-!
# Concrete instances for C06 and C11 – C28 at the evaluator

Alice's ciphertext has level 3, Bob's level 2; the keys are the generated ones of
`Verif.Props.ExKeySwitch`.  The default scale is 64; the moduli are 17, 41, 73, 97.
-/

noncomputable section

namespace MK

open Finset

/-- Parameters with exact arithmetic on scales. -/
def exPrm : CPar exCtx where
  crs := exCrs
  scale := 64
  fl := Fl.exact
  psi := fun _ => 1

def exA : CCt exCtx := ⟨exCtA, 64⟩
def exB : CCt exCtx := ⟨exCtB, 64⟩
def exAB : CCt exCtx := ⟨exCtAB, 128⟩
/-- A ciphertext of Bob whose scale is a multiple of the default scale. -/
def exB3 : CCt exCtx := ⟨exCtB, 192⟩

/-- Two schedules: insertion order and reversed order. -/
def exFwd : Sched := ⟨fun _ l => l, fun _ _ => List.Perm.refl _⟩
def exRev : Sched := ⟨fun _ l => l.reverse, fun _ _ => List.reverse_perm _⟩

theorem exAlign_eq (s : ℚ) : alignInt Fl.exact s s < 2 ^ 52 := by
  unfold alignInt
  rw [if_neg (by simp)]
  norm_num

theorem exBin : BinIn exPrm Ev.new exA exB 3 2 :=
  ⟨Ev.new_ok, exCtA_wf, exCtB_wf, by decide, by decide, Fl.exact_ok, exAlign_eq _, exAlign_eq _⟩

theorem exBin3 : BinIn exPrm Ev.new exA exB3 3 2 :=
  ⟨Ev.new_ok, exCtA_wf, exCtB_wf, by decide, by decide, Fl.exact_ok, by
    show alignInt Fl.exact 64 192 < 2 ^ 52
    norm_num [alignInt, Fl.exact], by
    show alignInt Fl.exact 192 64 < 2 ^ 52
    norm_num [alignInt, Fl.exact]⟩

/-- C11, C12, C13: Alice's ciphertext (level 3) plus and minus Bob's (level 2). -/
example : ∃ ev' r, Ev.new.AddNew exPrm exA exB exRev = .ok (ev', r) ∧ ∀ s, ∀ i ≤ 2,
    r.ct.phase s i = exA.ct.phase s i + exB.ct.phase s i :=
  C11_AddNew exCtx_good exBin rfl exRev

example : ∃ ev' r, Ev.new.SubNew exPrm exA exB exFwd = .ok (ev', r) ∧ ∀ s, ∀ i ≤ 2,
    r.ct.phase s i = exA.ct.phase s i - exB.ct.phase s i :=
  C12_SubNew exCtx_good exBin rfl exFwd

/-- C11, C12 with scales 64 and 192. -/
example : ∃ ev' r, Ev.new.AddNew exPrm exA exB3 exRev = .ok (ev', r) ∧ ∀ s, ∀ i ≤ 2,
    r.ct.phase s i = 3 * exA.ct.phase s i + exB3.ct.phase s i := by
  have := (C11_AddNew_ratio exCtx_good exBin3 (k := 3) (by norm_num) (by norm_num) exRev).1
    (by norm_num [exA]) (by norm_num [exA, exB3])
  exact_mod_cast this

example : ∃ ev' r, Ev.new.SubNew exPrm exA exB3 exRev = .ok (ev', r) ∧ ∀ s, ∀ i ≤ 2,
    r.ct.phase s i = 3 * exA.ct.phase s i - exB3.ct.phase s i := by
  have := (C12_SubNew_ratio exCtx_good exBin3 (k := 3) (by norm_num) (by norm_num) exRev).1
    (by norm_num [exA]) (by norm_num [exA, exB3])
  exact_mod_cast this

example : ∃ ev' r, Ev.new.AddNew exPrm exA exB3 exRev = .ok (ev', r) ∧
    r.ct.parties = {"alice", "bob"} ∧ r.ct.Wf 2 false ∧ r.ct.Level = .ok 2 ∧ r.scale = 192 := by
  obtain ⟨⟨e, r, h1, h2, h3, h4, h5⟩, -⟩ := C13_metadata exCtx_good exBin3 exRev
  refine ⟨e, r, h1, ?_, h3, h4, ?_⟩
  · rw [h2, show exA.ct.parties = _ from exCtA_parties, show exB3.ct.parties = _ from exCtB_parties]
    decide
  · rw [h5]; norm_num [exA, exB3]

/-- C14: scales 2 and 3 (the factor is 1 and the sum is off), scales 2 and 6 (exact). -/
example : alignInt Fl.exact 2 (3 / 2 * 2) = 1 := C14_ratio_below_two Fl.exact_ok (by norm_num)

example : ∀ ma mb : ℤ, ((alignInt Fl.exact 2 6 * ma + alignInt Fl.exact 6 2 * mb : ℤ) : ℚ) /
    max 2 6 = ma / 2 + mb / 6 :=
  (C14_exact_iff Fl.exact_ok (by norm_num) (by norm_num) (by norm_num)).mpr ⟨3, by norm_num⟩

example : ¬ ∀ ma mb : ℤ, ((alignInt Fl.exact 2 3 * ma + alignInt Fl.exact 3 2 * mb : ℤ) : ℚ) /
    max 2 3 = ma / 2 + mb / 3 := fun h => by
  obtain ⟨n, hn⟩ := (C14_exact_iff Fl.exact_ok (by norm_num) (by norm_num) (by norm_num)).mp h
  have : 3 = n * 2 := by exact_mod_cast hn
  omega

example (ma mb : ℤ) := C14_decode_error Fl.double_ok (sa := 2) (sb := 5) (by norm_num)
  (by norm_num) (by norm_num) ma mb

example := C14_factor exCtx_good exBin3 exRev

/-- C15: two levels off Alice's ciphertext; five levels cannot be dropped. -/
example : ∃ r, DropLevelNew exA 2 exRev = .ok r ∧ r.ct.Wf 1 false ∧ r.ct.parties = exA.ct.parties ∧
    r.scale = 64 ∧ ∀ s, ∀ i ≤ 1, r.ct.phase s i = exA.ct.phase s i :=
  C15_DropLevelNew (ct := exA) (L := 3) (n := 2) exCtA_wf (by decide) exRev

example : (dropLevel exCtA 5 ["0", "alice"]).panics :=
  C15_DropLevel_panics exCtA_wf (by decide) _

example : ∃ r, dropLevel exCtA 1 ["alice", "0"] = .ok r ∧ r.Wf 2 false := by
  obtain ⟨r, h1, h2, _⟩ := C15_DropLevel exCtA_wf (n := 1) (by decide) (o := ["alice", "0"])
    (List.Perm.swap _ _ _)
  exact ⟨r, h1, h2⟩

/-- C16: multiplication by `-7` in place, by `2.5` (scaled by the last modulus 97), and the
complex unit. -/
example : ∃ r, exPrm.MultByConst exA (.int (-7)) exA exRev = .ok r ∧ r.scale = 64 ∧
    ∀ s, ∀ i ≤ 3, r.ct.phase s i = (-7 : ℤ) * exA.ct.phase s i :=
  C16_MultByConst_int exCtx_good (prm := exPrm) (ct0 := exA) (out := exA) (L0 := 3) (L1 := 3)
    Fl.exact_ok exCtA_wf exCtA_wf rfl (n := -7) (by norm_num)
    (Or.inl rfl) exRev

example : ∃ r sc, exPrm.MultByConst exA (.f64 (5 / 2)) exA exRev = .ok r ∧
    constScale Fl.exact 97 (.f64 (5 / 2)) sc ∧ r.scale = 64 * sc ∧
    ∀ s, ∀ i ≤ 3, r.ct.phase s i = (roundConst Fl.exact (5 / 2) sc : ℤ) * exA.ct.phase s i := by
  obtain ⟨r, sc, h1, h2, h3, _, _, h4, _⟩ := C16_MultByConst exCtx_good (prm := exPrm)
    Fl.exact_ok (ct0 := exA) (out := exA) exCtA_wf exCtA_wf rfl (.f64 (5 / 2)) exRev
  exact ⟨r, sc, h1, h2, h3, h4⟩

/-- `2.5` does need the scale, and is represented by `243 = round(97 · 2.5)`. -/
example : needsScale Fl.exact (5 / 2) ∧ roundConst Fl.exact (5 / 2) 97 = 243 := by
  have h : ⌊(5 / 2 : ℚ)⌋ = 2 := by norm_num
  have h' : ⌊(97 * (5 / 2) + 1 / 2 : ℚ)⌋ = 243 := by norm_num
  constructor
  · refine ⟨by norm_num, ?_⟩
    norm_num [toInt64, h, Fl.exact]
  · unfold roundConst
    rw [if_neg (by norm_num), abs_of_pos (by norm_num)]
    show 1 * ⌊(97 * (5 / 2) + 1 / 2 : ℚ)⌋ = 243
    rw [h']; rfl

example : ∃ r, exPrm.MultByConst ⟨oneCt exCtx 3, 64⟩ (.complex 0 1) ⟨Ct.new 3 [], 1⟩ exRev = .ok r ∧
    ∀ s, r.ct.phase s 0 ≠ imagUnit exCtx.N _ * (oneCt exCtx 3).phase s 0 := by
  obtain ⟨r, h1, _, h3⟩ := C16_complex_wrong exCtx_good (prm := exPrm) Fl.exact_ok (by decide)
    (by show (1 : ZMod 17) ≠ 0; decide) (L := 3) 64 1 exRev
  exact ⟨r, h1, fun s => (h3 s).2⟩

/-! Rescaling -/

/-- From scale 8192 at level 3, one modulus (97) can be dropped: `8192/97 ≥ 32 > 8192/97/73`. -/
theorem exDrop1 : DropCount Fl.exact exQ 64 8192 3 1 where
  le := by decide
  keep m hm := by
    rw [C17_scale_exact, show m = 0 by omega]
    norm_num [prod_range_succ, exQ]
  stop := by
    rw [C17_scale_exact]
    norm_num [prod_range_succ, exQ]

/-- From scale `2^20`, two. -/
theorem exDrop2 : DropCount Fl.exact exQ 64 (2 ^ 20) 3 2 where
  le := by decide
  keep m hm := by
    rw [C17_scale_exact]
    interval_cases m <;> norm_num [prod_range_succ, exQ]
  stop := by
    rw [C17_scale_exact]
    norm_num [prod_range_succ, exQ]

/-- From the default scale itself, none. -/
theorem exDrop0 : DropCount Fl.exact exQ 64 64 3 0 where
  le := by decide
  keep m hm := by omega
  stop := by
    rw [C17_scale_exact]
    norm_num [prod_range_succ, exQ]

theorem exSec_bdd' (S : Finset String) : ∀ id ∈ S, Nega.Bdd (exSec id) 1 := fun id _ => exSec_bdd id

/-- C17, C18: two moduli are dropped. -/
example : ∃ ev' r, (Ev.new : Ev exCtx).rescaleSelf exPrm ⟨exCtAB, 2 ^ 20⟩ 64 exRev =
      .ok (none, ev', r) ∧ r.ct.Wf 1 false ∧
    ∃ e : ℕ → Nega exCtx.N ℤ,
      (∀ k < 2, Nega.Bdd (e k) (((exCtx.q (3 - k) / 2 : ℕ) : ℤ) * (1 + 2 * 4 * 1))) ∧
      (∀ i ≤ 1, ((∏ m ∈ range 2, exCtx.q (3 - m) : ℕ) : Nega exCtx.N (ZMod (exCtx.q i))) *
          r.ct.phase exSec i = exCtAB.phase exSec i + Nega.red (exCtx.q i)
            (∑ k ∈ range 2, ((∏ m ∈ range k, exCtx.q (3 - m) : ℕ) : Nega exCtx.N ℤ) * e k)) ∧
      ∀ m, exCtAB.Carries exSec 3 m → ∃ m', r.ct.Carries exSec 1 m' ∧
        ((∏ m ∈ range 2, exCtx.q (3 - m) : ℕ) : Nega exCtx.N ℤ) * m' =
          m + ∑ k ∈ range 2, ((∏ m ∈ range k, exCtx.q (3 - m) : ℕ) : Nega exCtx.N ℤ) * e k := by
  have := C18_Rescale exCtx_good (prm := exPrm) (ev := Ev.new) (ct := ⟨exCtAB, 2 ^ 20⟩) exCtAB_wf
    (by decide) (ms := 64) (by norm_num) (by norm_num) (by decide) exDrop2 (exSec_bdd' _) exRev
  have hcard : exCtAB.parties.card = 2 := by rw [exCtAB_parties]; decide
  simp only [hcard] at this
  exact this

example : ∃ n, DropCount Fl.exact exQ 64 (2 ^ 20) 3 n ∧ n = 2 := by
  rcases C17_count (prm := exPrm) (ev := Ev.new) (ct := ⟨exCtAB, 2 ^ 20⟩) exCtAB_wf (ms := 64)
    (by norm_num) (by norm_num) (by decide) exRev with ⟨n, h, _⟩ | ⟨h, _⟩
  · exact ⟨n, h, h.unique exDrop2⟩
  · have := h 3 le_rfl
    rw [show exPrm.fl = Fl.exact from rfl, C17_scale_exact] at this
    norm_num [prod_range_succ, show exCtx.q = exQ from rfl, exQ] at this

/-- C17: a scale that stays too large makes the loop run off the modulus chain. -/
example : ((Ev.new : Ev exCtx).rescaleSelf exPrm ⟨exCtAB, 2 ^ 40⟩ 64 exRev).panics := by
  rcases C17_count (prm := exPrm) (ev := Ev.new) (ct := ⟨exCtAB, 2 ^ 40⟩) exCtAB_wf (ms := 64)
    (by norm_num) (by norm_num) (by decide) exRev with ⟨n, h, _⟩ | ⟨_, h⟩
  · have h1 := h.le
    have h2 := h.stop
    rw [show exPrm.fl = Fl.exact from rfl, C17_scale_exact] at h2
    interval_cases n <;>
      norm_num [prod_range_succ, show exCtx.q = exQ from rfl, exQ] at h2
  · exact h

/-- C17: level 0 is an error. -/
example : ∃ msg, (Ev.new : Ev exCtx).Rescale exPrm ⟨Ct.new 0 ["alice"], 8192⟩ 64 exA false exRev =
    .ok (some msg, Ev.new, exA) :=
  C17_errors (ctIn := ⟨Ct.new 0 ["alice"], 8192⟩) false (Ct.new_wf _ _) (Or.inr (Or.inr rfl)) exRev

/-- C19: nothing to rescale loses the message; otherwise `RescaleNew` agrees with `Rescale`. -/
example : ∃ r, (Ev.new : Ev exCtx).RescaleNew exPrm exA 64 exRev = .ok (none, Ev.new, r) ∧
    ∀ s, ∀ i ≤ 3, r.ct.phase s i = 0 := by
  obtain ⟨r, h1, _, _, _, h2, _⟩ := C19_RescaleNew_loses_input (prm := exPrm) (ev := Ev.new)
    (ct := exA) exCtA_wf (t := 64) (by norm_num) (by norm_num [exA]) (by decide) exDrop0 exRev
  exact ⟨r, h1, h2⟩

example := C19_RescaleNew_drops (prm := exPrm) (ev := Ev.new) (ct := ⟨exCtAB, 8192⟩) exCtAB_wf
  (t := 64) (by norm_num) (by norm_num) (by decide) exDrop1 (by decide) exRev exFwd

/-- C20, C28: an ordinary plaintext of scale 64; the product is rescaled once. -/
theorem exBy1 : RescaleBy Fl.exact exQ 64 (128 * 64) 3 1 :=
  Or.inr ⟨by norm_num, by norm_num, by decide, by norm_num; exact exDrop1⟩

example : ∃ ev' r, (Ev.new : Ev exCtx).MulPtxtNew exPrm exAB (exPoly 3 9) 64 exRev = .ok (ev', r) ∧
    r.ct.Wf 2 false ∧ r.ct.parties = {"alice", "bob"} := by
  obtain ⟨e, r, h1, h2, h3, _⟩ := C20_MulPtxtNew exCtx_good (prm := exPrm) (ev := Ev.new)
    (ct := exAB) exCtAB_wf (by decide) (exPoly 3 9) 64 exBy1 (exSec_bdd' _) exRev
  exact ⟨e, r, h1, h2, by rw [h3]; exact exCtAB_parties⟩

example := C20_MulPtxt exCtx_good (prm := exPrm) (ev := Ev.new) (ct := exAB) exCtAB_wf
  (exPoly 3 9) 64 exRev

/-! Multiplication -/

/-- `64 · 64` at level 2: one modulus (73) is dropped. -/
theorem exBy2 : RescaleBy Fl.exact exQ 64 (64 * 64) (min 3 2) 1 := by
  refine Or.inr ⟨by norm_num, by norm_num, by decide, ?_⟩
  refine ⟨by decide, fun m hm => ?_, ?_⟩
  · rw [C17_scale_exact, show m = 0 by omega]
    norm_num [prod_range_succ, exQ]
  · rw [C17_scale_exact]
    norm_num [prod_range_succ, exQ]

theorem exRlkReach : RlkReach exRlkSet := .add (.add .new _) _

theorem exAB_union : exA.ct.parties ∪ exB.ct.parties = {"alice", "bob"} := by
  rw [show exA.ct.parties = _ from exCtA_parties, show exB.ct.parties = _ from exCtB_parties]
  decide

theorem exHas {S : Finset String} (hS : S ⊆ {"alice", "bob"}) : HasKeys exRlkSet S exRlk :=
  fun _ h => exRlkSet_get (hS h)

theorem exRlkFor {S : Finset String} (hS : S ⊆ {"alice", "bob"}) : RlkFor exRlkSet S exRlk :=
  exRlkReach.rlkFor (exHas hS)

theorem exMax : digitMax exCtx 194 := by
  intro L hL k hk
  have hL : L < 4 := hL
  interval_cases L <;> revert k <;> decide

/-- C21: the product of Alice's and Bob's ciphertexts, relinearized and rescaled. -/
example : ∃ ev' rlk' out W, Ev.new.MulRelinNew exPrm exA exB false exRlkSet exRev =
      .ok (ev', rlk', out) ∧ out.ct.Wf 1 false ∧ out.ct.parties = exA.ct.parties ∪ exB.ct.parties ∧
    (∀ x, exCtx.P * |Nega.coeff W x| ≤ mulNoise exCtx 2 1 1 194 194 194 1 2) ∧
    ∃ e : ℕ → Nega exCtx.N ℤ, ∀ i ≤ 1,
      ((73 : ℕ) : Nega exCtx.N (ZMod (exCtx.q i))) * out.ct.phase exSec i =
        exA.ct.phase exSec i * exB.ct.phase exSec i + Nega.red (exCtx.q i) (W + e 0) := by
  obtain ⟨ev', rlk', out, W, h1, h2, h3, _, h5, e, _, h7, _⟩ := C21_MulRelinNew exCtx_good exCtx_fits
    (prm := exPrm) Ev.new_ok (a := exA) (b := exB) false (by simp) exCtA_wf exCtB_wf (by decide)
    (by decide) (exCrs_get (-1) (by decide)) (exRlkFor exAB_union.le) (exRelinFor _) exMax
    (exRelinBdd _) exBy2 exRev
  refine ⟨ev', rlk', out, W, h1, h2, h3, ?_, e, fun i hi => ?_⟩
  · have ha : exA.ct.parties.card = 1 := by rw [show exA.ct.parties = _ from exCtA_parties]; rfl
    have hb : exB.ct.parties.card = 1 := by rw [show exB.ct.parties = _ from exCtB_parties]; rfl
    rw [ha, hb] at h5
    exact h5
  · have := h7 i hi
    rw [prod_range_one, sum_range_one, prod_range_zero, Nat.cast_one, one_mul] at this
    exact this

/-- C22: squaring. -/
theorem exBy3 : RescaleBy Fl.exact exQ 64 (64 * 64) 3 1 := by
  refine Or.inr ⟨by norm_num, by norm_num, by decide, ?_⟩
  refine ⟨by decide, fun m hm => ?_, ?_⟩
  · rw [C17_scale_exact, show m = 0 by omega]
    norm_num [prod_range_succ, exQ]
  · rw [C17_scale_exact]
    norm_num [prod_range_succ, exQ]

example := C22_square exCtx_good (prm := exPrm) (ev := Ev.new) (ev' := Ev.new) Ev.new_ok Ev.new_ok
  (a := exA) exCtA_wf (by decide) (exCrs_get (-1) (by decide))
  (exRlkFor (by rw [show exA.ct.parties = _ from exCtA_parties]; decide))
  (exRlkFor (by rw [show exA.ct.parties = _ from exCtA_parties]; decide)) exBy3 exRev exFwd
  (o := ["alice", "0"]) (List.Perm.swap _ _ _)

/-- C23: the hoisted product, with hoisted forms made by `HoistedForm`. -/
example : ∃ ev1 ev2 ha hb e1 e2 k1 r1 r2,
    (Ev.new : Ev exCtx).HoistedForm exA exFwd = .ok (ev1, ha) ∧
    ev1.HoistedForm exB exRev = .ok (ev2, hb) ∧
    Ev.new.MulRelinNew exPrm exA exB false exRlkSet exRev = .ok (e1, k1, r1) ∧
    ev2.MulRelinHoistedNew exPrm exA exB (some ha) (some hb) exRlkSet exFwd = .ok (e2, r2) ∧
    r1.ct.Same r2.ct ∧ r1.scale = r2.scale := by
  obtain ⟨ev1, ha, h1, o1, i1⟩ := C23_HoistedForm exCtx_good Ev.new_ok (a := exA) exCtA_wf exFwd
  obtain ⟨ev2, hb, h2, o2, i2⟩ := C23_HoistedForm exCtx_good o1 (a := exB) exCtB_wf exRev
  obtain ⟨e1, e2, k1, r1, r2, h⟩ := C23_MulRelinHoistedNew exCtx_good (prm := exPrm) Ev.new_ok o2
    false (by simp) exCtA_wf exCtB_wf (by decide) (by decide) (exCrs_get (-1) (by decide))
    (exRlkFor exAB_union.le) (exHas exAB_union.le) i1 i2 exBy2 exRev exFwd
  exact ⟨ev1, ev2, ha, hb, e1, e2, k1, r1, r2, h1, h2, h⟩

/-- C06: without Bob's key the product panics; after registering both keys it does not. -/
example : (Ev.new.MulRelinNew exPrm exA exB false
    (RelinKeySet.new.add RelinKey.id SwKey.new (exRlk "alice")) exRev).panics := by
  refine C06_MulRelinNew_panics exPrm Ev.new exA exB false _ (id := "bob")
    (by rw [exAB_union]; decide) ?_ exRev
  have ha : (exRlk "alice").id = "alice" := (exRelin "alice").choose_spec.2.1
  unfold RelinKeySet.add RelinKeySet.new
  simp only [ha]
  rw [GoMap.get?_set_of_ne _ _ (by decide)]
  rfl

/-! Rotation -/

theorem exKeysAt : KeysAt exCrs exRkSet exCtAB.parties (fun _ => exRk)
    (fun i => exSample i) 1 :=
  ⟨exCrs_get 1 (by decide), fun id h => exRkSet_get (by rwa [exCtAB_parties] at h)⟩

theorem exSlot : slotIdx exCtx.N (-3) = 1 := by unfold slotIdx; decide

theorem exNeeds {idx : ℕ} (h : rotNeeds exPrm.crs (slotIdx exCtx.N (-3)) idx) : idx = 1 := by
  rw [exSlot] at h
  have : exPrm.crs.has ((1 : ℕ) : ℤ) = true := by
    rw [GoMap.has]; erw [exCrs_get 1 (by decide)]; rfl
  have h2 := h.2
  rwa [if_pos this] at h2

/-- C24: rotation by `-3`, that is by `1` on two slots. -/
example : ∃ ev' r W, Ev.new.RotateNew exPrm exAB (-3) exRkSet exRev = .ok (ev', r) ∧ ev'.Ok ∧
      r.ct.Wf 3 false ∧ r.ct.parties = exAB.ct.parties ∧ r.scale = 128 ∧
      (∀ x, exCtx.P * |Nega.coeff W x| ≤ rotCount exPrm.crs (slotIdx exCtx.N (-3)) *
        (exAB.ct.parties.card * extNoise exCtx 3 194 1 2)) ∧
      ∀ i ≤ 3, r.ct.phase exSec i = Nega.auto (5 ^ 1) (exAB.ct.phase exSec i) +
        Nega.red (exCtx.q i) W := by
  have := C24_RotateNew exCtx_N (by decide) exCtx_good exCtx_fits (prm := exPrm) Ev.new_ok
    (ct := exAB) (L := 3) (by decide) exCtAB_wf (-3) (rkSet := exRkSet) (rk := fun _ => exRk)
    (a := fun i => exSample i)
    (fun idx h => by rw [exNeeds h]; exact exKeysAt) (s := exSec) (D := 194) (T := 1) (B := 2)
    (fun idx h => by
      rw [exNeeds h]
      exact ⟨⟨fun _ _ => exE, fun _ _ _ => exE_bdd, fun id _ => (exRot id).choose_spec.2.2.2⟩,
        fun id _ => exSec_bdd id⟩) (by decide) exRev
  rw [exSlot] at this ⊢
  exact this

/-- C25: default keys of Alice and Bob. -/
example := C25_default_keys_suffice exCtx_N (by decide) exCtx_good (prm := exPrm)
  (sample := exSample) rfl (RPoly.new 4) (fun _ _ _ => exE)
  [GenSecretKey exS1 "alice", GenSecretKey exS2 "bob"]

/-- C26, C23: hoisted rotation by a multiple of the number of slots, and by `-3`. -/
example (H : HoistedCt exCtx) : ∃ r, Ev.new.RotateHoistedNew exPrm exAB 6 H exRkSet exRev =
    .ok (Ev.new, r) ∧ r.ct.Same exCtAB ∧ r.scale = 128 :=
  C26_copy (by decide) exPrm Ev.new exCtAB_wf 6 (by decide) H exRkSet exRev

example : ∃ ev1 H e1 e2 r1 r2, (Ev.new : Ev exCtx).HoistedForm exAB exFwd = .ok (ev1, H) ∧
    ev1.RotateHoistedNew exPrm exAB (-3) H exRkSet exRev = .ok (e1, r1) ∧
    Ev.new.RotateNew exPrm exAB (-3) exRkSet exFwd = .ok (e2, r2) ∧
    r1.ct.Same r2.ct ∧ r1.scale = r2.scale := by
  obtain ⟨ev1, H, h1, o1, i1⟩ := C23_HoistedForm exCtx_good Ev.new_ok (a := exAB) exCtAB_wf exFwd
  obtain ⟨e1, e2, r1, r2, q1, q2, _, _, q3, q4⟩ := C23_RotateHoistedNew exCtx_N (by decide)
    exCtx_good (prm := exPrm) o1 Ev.new_ok (L := 3) (by decide) exCtAB_wf (-3)
    (Or.inr (by rw [exSlot]; exact exKeysAt)) i1 exRev exFwd
  exact ⟨ev1, H, e1, e2, r1, r2, h1, q1, q2, q3, q4⟩

/-- C27: conjugation at the top level. -/
example := C27_ConjugateNew exCtx_N exCtx_good exCtx_fits (prm := exPrm) Ev.new_ok (ct := exAB)
  exCtAB_wf (by decide) (ckSet := exCkSet) (ck := exCk)
  (fun id h => exCkSet_get (by rwa [show exAB.ct.parties = _ from exCtAB_parties] at h))
  (exCrs_get (-2) (by decide)) (s := exSec) (fun id _ => (exConj id).choose_spec.2.2) (D := 194)
  (T := 1) (B := 2) (by decide) (fun id _ => exSec_bdd id) (fun _ _ _ => exE_bdd) exRev

example : Ev.new.ConjugateNew exPrm exB exCkSet exRev = .error .indexRange :=
  C27_ConjugateNew_below_max_panics exPrm Ev.new (by decide) exCtB_wf exCkSet exRev

/-- C28: a fresh evaluator and one that has multiplied, with the key set it has written to. -/
example (ev' : Ev exCtx) (rlk' : RlkSet exCtx) (r : CCt exCtx)
    (h : Ev.new.MulRelinNew exPrm exA exB false exRlkSet exRev = .ok (ev', rlk', r))
    (hk : HasKeys rlk' (exA.ct.parties ∪ exB.ct.parties) exRlk) :=
  C28_MulRelinNew exCtx_good (prm := exPrm) Ev.Reach.new (Ev.Reach.mulRelin .new h) (a := exA)
    (b := exB) false (by simp) exCtA_wf exCtB_wf (by decide) (by decide)
    (exCrs_get (-1) (by decide)) exRlkReach (RlkReach.mul exRlkReach .new h)
    (exHas exAB_union.le) hk exBy2 exFwd exRev

example (ev' : Ev exCtx) (rlk' : RlkSet exCtx) (r : CCt exCtx)
    (h : Ev.new.MulRelinNew exPrm exA exB false exRlkSet exRev = .ok (ev', rlk', r)) :=
  C28_AddNew_SubNew exCtx_good Ev.Reach.new (Ev.Reach.mulRelin .new h) exBin3 exFwd exRev

end MK
