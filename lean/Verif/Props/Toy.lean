import Verif.Toy
import Verif.Props.MbMain
import Verif.Props.Utils
import Mathlib.Algebra.BigOperators.Field

/-!
# C53 – C55: the toy programs
-/

noncomputable section

namespace MK.Lr

open Finset
open Word (idx upd idx_of_lt idx_panics upd_of_lt)

/-! ## Normalisation -/

theorem realAt_of {data : List (List ℂ)} {i j : ℕ} (hi : i < data.length)
    (hj : j < (data.getD i []).length) : realAt data i j = .ok (entry data i j).re := by
  rw [List.getD_eq_getElem _ _ hi] at hj
  simp only [realAt, idx_of_lt hi, idx_of_lt hj, Go.ok_bind, Go.pure_eq, entry,
    List.getD_eq_getElem _ _ hi, List.getD_eq_getElem _ _ hj]

theorem realAt_ok {data : List (List ℂ)} {i j : ℕ} {x : ℝ} (h : realAt data i j = .ok x) :
    i < data.length ∧ j < (data.getD i []).length := by
  by_cases hi : i < data.length
  · refine ⟨hi, ?_⟩
    rw [List.getD_eq_getElem _ _ hi]
    by_contra hj
    rw [realAt, idx_of_lt hi, Go.ok_bind, idx_panics (by omega)] at h
    cases h
  · rw [realAt, idx_panics (by omega)] at h
    cases h

/-- The sum of `f 0, …, f (n - 1)` as float64 accumulates it. -/
def flSum (F : Fl) (f : ℕ → ℝ) : ℕ → ℝ
  | 0 => 0
  | n + 1 => F.re (flSum F f n + f n)

theorem sumLoop (F : Fl) {g : ℕ → Go ℝ} {f : ℕ → ℝ} {n : ℕ} (h : ∀ i < n, g i = .ok (f i)) (φ : ℝ → ℝ) :
    forN n (fun i s => do
      let x ← g i
      return F.re (s + φ x)) 0 = .ok (flSum F (fun i => φ (f i)) n) := by
  obtain ⟨s, e, hs⟩ := forN_inv n (fun i s => do
      let x ← g i
      return F.re (s + φ x)) (fun k s => s = flSum F (fun i => φ (f i)) k) 0 rfl (fun k hk s hs => by
    refine ⟨_, ?_, rfl⟩
    rw [h k hk, hs]; rfl)
  rw [e, hs]

theorem _root_.MK.Fl.re_rat (F : Fl) (q : ℚ) : F.re (q : ℝ) = (F.rnd q : ℝ) := by
  have h : ∃ q' : ℚ, (q : ℝ) = q' := ⟨q, rfl⟩
  rw [Fl.re, dif_pos h]
  have : h.choose = q := by exact_mod_cast h.choose_spec.symm
  rw [this]

theorem _root_.MK.Fl.exact_re (x : ℝ) : Fl.exact.re x = x := by
  by_cases h : ∃ q : ℚ, x = q
  · obtain ⟨q, rfl⟩ := h
    rw [Fl.re_rat]; rfl
  · rw [Fl.re, dif_neg h]

theorem flSum_exact (f : ℕ → ℝ) (n : ℕ) : flSum Fl.exact f n = ∑ i ∈ range n, f i := by
  induction n with
  | zero => rfl
  | succ n ih => rw [flSum, ih, Fl.exact_re, sum_range_succ]

/-- The mean of column `j` over the first `pop` records. -/
def colMean (data : List (List ℂ)) (pop j : ℕ) : ℝ := (∑ i ∈ range pop, (entry data i j).re) / pop

/-- The variance of column `j` over the first `pop` records with divisor `den`. -/
def colVar (data : List (List ℂ)) (pop : ℕ) (den : ℝ) (j : ℕ) : ℝ :=
  (∑ i ∈ range pop, ((entry data i j).re - colMean data pop j) ^ 2) / den

/-- The mean of column `j` in float64. -/
def flMean (F : Fl) (data : List (List ℂ)) (pop j : ℕ) : ℝ :=
  F.re (flSum F (fun i => (entry data i j).re) pop / pop)

/-- The standard deviation of column `j` in float64, with `sq` for the square root. -/
def flStd (F : Fl) (sq : ℝ → ℝ) (data : List (List ℂ)) (pop : ℕ) (den : ℝ) (j : ℕ) : ℝ :=
  sq (F.re (flSum F (fun i => F.re (F.re ((entry data i j).re - flMean F data pop j) ^ 2)) pop / den))

/-- The standard score of an entry in float64. -/
def flScore (F : Fl) (sq : ℝ → ℝ) (data : List (List ℂ)) (pop : ℕ) (den : ℝ) (i j : ℕ) : ℝ :=
  F.re (F.re ((entry data i j).re - flMean F data pop j) / flStd F sq data pop den j)

theorem flMean_exact (data : List (List ℂ)) (pop j : ℕ) :
    flMean Fl.exact data pop j = colMean data pop j := by
  rw [flMean, Fl.exact_re, flSum_exact]; rfl

theorem flStd_exact (data : List (List ℂ)) (pop : ℕ) (den : ℝ) (j : ℕ) :
    flStd Fl.exact Real.sqrt data pop den j = Real.sqrt (colVar data pop den j) := by
  simp only [flStd, Fl.exact_re, flSum_exact, flMean_exact]; rfl

theorem flScore_exact (data : List (List ℂ)) (pop : ℕ) (den : ℝ) (i j : ℕ) :
    flScore Fl.exact Real.sqrt data pop den i j =
      ((entry data i j).re - colMean data pop j) / Real.sqrt (colVar data pop den j) := by
  simp only [flScore, Fl.exact_re, flStd_exact, flMean_exact]

theorem meanStd_spec (F : Fl) (sq : ℝ → ℝ) {data : List (List ℂ)} {pop : ℕ} {j : ℕ} (den : ℝ)
    (hr : ∀ i < pop, i < data.length ∧ j < (data.getD i []).length) :
    meanStd F sq data pop den j = .ok (flMean F data pop j, flStd F sq data pop den j) := by
  have h : ∀ i < pop, realAt data i j = .ok (entry data i j).re := fun i hi =>
    realAt_of (hr i hi).1 (hr i hi).2
  have h1 := sumLoop F h id
  have h2 := sumLoop F h fun x => F.re (F.re (x - flMean F data pop j) ^ 2)
  simp only [id] at h1
  unfold meanStd
  rw [h1]
  simp only [Go.ok_bind]
  erw [h2]
  rfl

theorem entry_set {data : List (List ℂ)} {k l : ℕ} (hk : k < data.length)
    (hl : l < (data.getD k []).length) (y : ℂ) (i j : ℕ) :
    entry (data.set k ((data.getD k []).set l y)) i j =
      if i = k ∧ j = l then y else entry data i j := by
  unfold entry
  by_cases h : i = k
  · subst h
    rw [List.getD_eq_getElem?_getD (l := data.set _ _), List.getElem?_set_self hk, Option.getD_some]
    by_cases h' : j = l
    · subst h'
      rw [if_pos ⟨rfl, rfl⟩, List.getD_eq_getElem?_getD, List.getElem?_set_self hl, Option.getD_some]
    · rw [if_neg (by tauto), List.getD_eq_getElem?_getD, List.getElem?_set_ne (by omega),
        ← List.getD_eq_getElem?_getD]
  · rw [if_neg (by tauto), List.getD_eq_getElem?_getD (l := data.set _ _),
      List.getElem?_set_ne (by omega), ← List.getD_eq_getElem?_getD]

theorem rowLen_set {data : List (List ℂ)} {k l : ℕ} (hk : k < data.length) (y : ℂ) (i : ℕ) :
    ((data.set k ((data.getD k []).set l y)).getD i []).length = (data.getD i []).length := by
  by_cases h : i = k
  · subst h
    rw [List.getD_eq_getElem?_getD (l := data.set _ _), List.getElem?_set_self hk, Option.getD_some,
      List.length_set]
  · rw [List.getD_eq_getElem?_getD (l := data.set _ _), List.getElem?_set_ne (by omega),
      ← List.getD_eq_getElem?_getD]

/-- The columns of the toy data that are to be normalised, written out. -/
def toyCols (j : ℕ) : Bool := j ∈ [0, 2, 4, 6, 7, 8, 9, 10, 11, 12, 13, 14, 15, 16]

/-- **C53 (columns).** The condition of the toy programs selects these columns. -/
theorem C53_columns : toySel = toyCols := by
  funext j
  by_cases h : j < 17
  · interval_cases j <;> rfl
  · have : j ∉ [0, 2, 4, 6, 7, 8, 9, 10, 11, 12, 13, 14, 15, 16] := by
      intro hj
      fin_cases hj <;> simp at h
    rw [toySel, toyCols, decide_eq_false this, decide_eq_false fun h' => h h'.2.2.2]

/-- The table after normalisation: the selected entries shifted and divided, the others as they were,
rows of the same length. -/
structure Normalised (pop : ℕ) (den : ℝ) (numFeature numData : ℕ) (sel : ℕ → Bool)
    (data out : List (List ℂ)) : Prop where
  len : out.length = data.length
  rows : ∀ i, (out.getD i []).length = (data.getD i []).length
  vals : ∀ i < numData, ∀ j < numFeature, sel j = true → entry out i j =
    ((((entry data i j).re - colMean data pop j) / Real.sqrt (colVar data pop den j) : ℝ) : ℂ)
  keep : ∀ i j, ¬ (i < numData ∧ j < numFeature ∧ sel j = true) → entry out i j = entry data i j

/-- The same for float64: the new values are the rounded scores. -/
structure FlNormalised (F : Fl) (sq : ℝ → ℝ) (pop : ℕ) (den : ℝ) (numFeature numData : ℕ)
    (sel : ℕ → Bool) (data out : List (List ℂ)) : Prop where
  len : out.length = data.length
  rows : ∀ i, (out.getD i []).length = (data.getD i []).length
  vals : ∀ i < numData, ∀ j < numFeature, sel j = true →
    entry out i j = (flScore F sq data pop den i j : ℂ)
  keep : ∀ i j, ¬ (i < numData ∧ j < numFeature ∧ sel j = true) → entry out i j = entry data i j

theorem normalise_spec (F : Fl) (sq : ℝ → ℝ) {pop : ℕ} {den : ℝ} {numFeature numData : ℕ}
    {sel : ℕ → Bool} {data : List (List ℂ)}
    (hr : ∀ i < pop, ∀ j < numFeature, i < data.length ∧ j < (data.getD i []).length)
    (hs : ∀ i < numData, ∀ j < numFeature, sel j = true →
      i < data.length ∧ j < (data.getD i []).length) :
    ∃ out, normalise F sq pop den numFeature numData sel data = .ok out ∧
      FlNormalised F sq pop den numFeature numData sel data out := by
  obtain ⟨u, ms, e1, -, -, e2⟩ := tabulate_spec (n := numFeature) (f := fun j (_ : Unit) => do
      let m ← meanStd F sq data pop den j
      return ((), m)) (Inv := fun _ => True)
    (P := fun j m => m = (flMean F data pop j, flStd F sq data pop den j))
    (fun j hj _ _ => ⟨(), _, by
      rw [meanStd_spec F sq den fun i hi => hr i hi j hj]; rfl, trivial, rfl⟩)
    (s := ()) trivial
  let f : ℕ → ℕ → ℂ := fun i j => (flScore F sq data pop den i j : ℂ)
  let Inv : ℕ → ℕ → List (List ℂ) → Prop := fun k l out => out.length = data.length ∧
    (∀ i, (out.getD i []).length = (data.getD i []).length) ∧
    (∀ i j, (i < k ∧ j < numFeature ∨ i = k ∧ j < l) → sel j = true → entry out i j = f i j) ∧
    ∀ i j, ¬ ((i < k ∧ j < numFeature ∨ i = k ∧ j < l) ∧ sel j = true) →
      entry out i j = entry data i j
  obtain ⟨out, e3, h1, h2, h3, h4⟩ := forN_inv numData (Inv := fun k out => Inv k 0 out) (s := data)
    (body := fun i data => forN numFeature (fun j data => do
      if sel j then
        let row ← idx data i
        let x ← idx row j
        let (mean, std) ← idx ms j
        upd data i (row.set j (F.re (F.re (x.re - mean) / std) : ℂ))
      else return data) data)
    ⟨rfl, fun _ => rfl, fun i j h => by omega, fun i j _ => rfl⟩ (fun k hk out hout => by
      obtain ⟨out', e, h⟩ := forN_inv numFeature (Inv := fun l out => Inv k l out) (s := out)
        (body := fun j data => do
          if sel j then
            let row ← idx data k
            let x ← idx row j
            let (mean, std) ← idx ms j
            upd data k (row.set j (F.re (F.re (x.re - mean) / std) : ℂ))
          else return data) hout (fun l hl out h => by
        obtain ⟨a1, a2, a3, a4⟩ := h
        by_cases hsel : sel l = true
        · have hk' : k < out.length := by rw [a1]; exact (hs k hk l hl hsel).1
          have hl' : l < (out.getD k []).length := by rw [a2]; exact (hs k hk l hl hsel).2
          have hl'' : l < out[k].length := by rwa [List.getD_eq_getElem _ _ hk'] at hl'
          obtain ⟨m, hm, rfl⟩ := e2 l hl
          refine ⟨out.set k ((out.getD k []).set l (f k l)), ?_, by simpa using a1, fun i => ?_,
            fun i j h hj => ?_, fun i j h => ?_⟩
          · have hx : out[k][l] = entry data k l := by
              rw [← a4 k l (by omega), entry, List.getD_eq_getElem _ _ hk',
                List.getD_eq_getElem _ _ hl'']
            simp only [hsel, if_true, idx_of_lt hk', idx_of_lt hl'', Word.idx_of_get? hm, Go.ok_bind,
              upd_of_lt hk', hx, List.getD_eq_getElem _ _ hk']
            rfl
          · rw [rowLen_set hk', a2]
          · rw [entry_set hk' hl']
            split_ifs with h'
            · rw [h'.1, h'.2]
            · exact a3 i j (by omega) hj
          · rw [entry_set hk' hl', if_neg]
            · exact a4 i j (fun h' => h ⟨by omega, h'.2⟩)
            · rintro ⟨rfl, rfl⟩
              exact h ⟨by omega, hsel⟩
        · refine ⟨out, by simp [hsel, Go.pure_eq], a1, a2, fun i j h hj => a3 i j ?_ hj,
            fun i j h => a4 i j fun h' => h ⟨by omega, h'.2⟩⟩
          rcases Nat.lt_or_ge j l with h5 | h5
          · omega
          · rcases h with h | h
            · omega
            · have : j = l := by omega
              subst this
              exact absurd hj hsel)
      obtain ⟨b1, b2, b3, b4⟩ := h
      exact ⟨out', e, b1, b2, fun i j h => b3 i j (by omega), fun i j h => b4 i j fun h' => h
        ⟨by omega, h'.2⟩⟩)
  refine ⟨out, ?_, h1, h2, fun i hi j hj h => h3 i j (by omega) h, fun i j h => h4 i j fun h' => h
    ⟨by omega, by omega, h'.2⟩⟩
  unfold normalise
  rw [e1]
  exact e3

/-- **C53 (success and values).** If the first `pop` records have all features and the first `numData`
records all normalised ones, the normalisation succeeds; it changes exactly the selected entries of the
first `numData` records, in exact arithmetic to `(x - mean) / std` with the mean and standard deviation of
the first `pop` records. -/
theorem C53_normalise {pop : ℕ} {den : ℝ} {numFeature numData : ℕ} {sel : ℕ → Bool}
    {data : List (List ℂ)}
    (hr : ∀ i < pop, ∀ j < numFeature, i < data.length ∧ j < (data.getD i []).length)
    (hs : ∀ i < numData, ∀ j < numFeature, sel j = true →
      i < data.length ∧ j < (data.getD i []).length) :
    ∃ out, normalise Fl.exact Real.sqrt pop den numFeature numData sel data = .ok out ∧
      Normalised pop den numFeature numData sel data out := by
  obtain ⟨out, e, h⟩ := normalise_spec Fl.exact Real.sqrt (den := den) hr hs
  exact ⟨out, e, h.len, h.rows, fun i hi j hj hj' => by rw [h.vals i hi j hj hj', flScore_exact], h.keep⟩

theorem meanStd_ok {F : Fl} {sq : ℝ → ℝ} {data : List (List ℂ)} {pop : ℕ} {den : ℝ} {j : ℕ} {m : ℝ × ℝ}
    (h : meanStd F sq data pop den j = .ok m) : ∀ i < pop, i < data.length ∧ j < (data.getD i []).length := by
  unfold meanStd at h
  cases e : forN pop (fun i s => do
    let x ← realAt data i j
    return F.re (s + x)) (0 : ℝ) with
  | error p => rw [e] at h; cases h
  | ok s =>
    refine (Utils.forN_ok (Inv := fun _ => True) trivial (fun k _ s s' _ hs => ⟨trivial, ?_⟩) e).2
    cases e' : realAt data k j with
    | error p => rw [e'] at hs; cases hs
    | ok x => exact realAt_ok e'

theorem tabulate_ok {σ α : Type} {n : ℕ} {f : ℕ → σ → Go (σ × α)} {s : σ} {r : σ × List α}
    (h : tabulate n f s = .ok r) : ∀ i < n, ∃ s s' x, f i s = .ok (s', x) := by
  unfold tabulate at h
  induction n generalizing r with
  | zero => intro i hi; omega
  | succ n ih =>
    rw [forUp] at h
    cases e : forUp n (fun i (st : σ × List α) => do
        let (s, x) ← f i st.1
        return (s, st.2 ++ [x])) (s, []) with
    | error p => rw [e] at h; cases h
    | ok st =>
      rw [e, Go.ok_bind] at h
      intro i hi
      rcases Nat.lt_succ_iff_lt_or_eq.mp hi with hi | rfl
      · exact ih e i hi
      · cases e' : f i st.1 with
        | error p => rw [e'] at h; cases h
        | ok y => exact ⟨st.1, y.1, y.2, e'⟩

/-- **C53 (panics).** The normalisation succeeds exactly if the first `pop` records have all features and
the first `numData` records the selected ones; else it panics. -/
theorem C53_ok_iff {F : Fl} {sq : ℝ → ℝ} {pop : ℕ} {den : ℝ} {numFeature numData : ℕ} {sel : ℕ → Bool}
    {data : List (List ℂ)} : (∃ out, normalise F sq pop den numFeature numData sel data = .ok out) ↔
      (∀ i < pop, ∀ j < numFeature, i < data.length ∧ j < (data.getD i []).length) ∧
      ∀ i < numData, ∀ j < numFeature, sel j = true →
        i < data.length ∧ j < (data.getD i []).length := by
  constructor
  · rintro ⟨out, h⟩
    unfold normalise at h
    cases e : tabulate numFeature (fun j (_ : Unit) => do
        let m ← meanStd F sq data pop den j
        return ((), m)) () with
    | error p => rw [e] at h; cases h
    | ok r =>
      rw [e, Go.ok_bind] at h
      refine ⟨fun i hi j hj => ?_, ?_⟩
      · obtain ⟨s, s', x, e'⟩ := tabulate_ok e j hj
        cases e'' : meanStd F sq data pop den j with
        | error p => rw [e''] at e'; cases e'
        | ok m => exact meanStd_ok e'' i hi
      · let Same : List (List ℂ) → Prop := fun d => d.length = data.length ∧
          ∀ i, (d.getD i []).length = (data.getD i []).length
        refine (Utils.forN_ok (Inv := Same) (P := fun i => ∀ j < numFeature, sel j = true →
          i < data.length ∧ j < (data.getD i []).length) ⟨rfl, fun _ => rfl⟩
          (fun k _ d d' hd he => ?_) h).2
        refine Utils.forN_ok (Inv := Same) (P := fun j => sel j = true →
          k < data.length ∧ j < (data.getD k []).length) hd (fun j _ d d' hd he => ?_) he
        by_cases hsel : sel j = true
        · simp only [hsel, if_true] at he
          by_cases hk : k < d.length
          · by_cases hj : j < d[k].length
            · rw [idx_of_lt hk, Go.ok_bind, idx_of_lt hj, Go.ok_bind] at he
              cases e2 : idx r.2 j with
              | error p => rw [e2] at he; cases he
              | ok m =>
                rw [e2, Go.ok_bind] at he
                obtain ⟨-, rfl⟩ := Utils.upd_ok he
                have hrow : d[k] = d.getD k [] := (List.getD_eq_getElem _ _ hk).symm
                refine ⟨⟨by simpa using hd.1, fun i => ?_⟩, fun _ => ⟨by rw [← hd.1]; exact hk, ?_⟩⟩
                · generalize d[k][j] = x
                  rw [hrow, rowLen_set hk, hd.2]
                · rw [← hd.2, ← hrow]; exact hj
            · rw [idx_of_lt hk, Go.ok_bind, idx_panics (by omega)] at he
              cases he
          · rw [idx_panics (by omega)] at he
            cases he
        · simp only [hsel] at he
          obtain rfl := Except.ok.inj he
          exact ⟨hd, fun h => absurd h hsel⟩
  · rintro ⟨h1, h2⟩
    obtain ⟨out, e, -⟩ := normalise_spec F sq (den := den) h1 h2
    exact ⟨out, e⟩

theorem normalise_ok {F : Fl} {sq : ℝ → ℝ} {pop : ℕ} {den : ℝ} {numFeature numData : ℕ} {sel : ℕ → Bool}
    {data out : List (List ℂ)} (h : normalise F sq pop den numFeature numData sel data = .ok out) :
    FlNormalised F sq pop den numFeature numData sel data out := by
  obtain ⟨h1, h2⟩ := C53_ok_iff.mp ⟨out, h⟩
  obtain ⟨out', e, h3⟩ := normalise_spec F sq (den := den) h1 h2
  rw [h] at e
  rwa [Except.ok.inj e]

/-- Column `j` is not constant over the first `pop` records. -/
def Varies (data : List (List ℂ)) (pop j : ℕ) : Prop :=
  ∃ i < pop, ∃ i' < pop, (entry data i j).re ≠ (entry data i' j).re

theorem colVar_pos {data : List (List ℂ)} {pop j : ℕ} {den : ℝ} (hden : 0 < den)
    (hne : Varies data pop j) : 0 < colVar data pop den j := by
  refine div_pos (lt_of_le_of_ne (sum_nonneg fun i _ => sq_nonneg _) fun h0 => ?_) hden
  have hz := (sum_eq_zero_iff_of_nonneg fun i _ => sq_nonneg _).mp h0.symm
  obtain ⟨i, hi, i', hi', hne⟩ := hne
  have h1 := pow_eq_zero_iff two_ne_zero |>.mp (hz i (mem_range.mpr hi))
  have h2 := pow_eq_zero_iff two_ne_zero |>.mp (hz i' (mem_range.mpr hi'))
  exact hne (by linarith)

/-- **C53 (standard scores).** In every selected column that is not constant over the first `pop` records,
the normalised values of these records have mean 0 and sum of squares `den` (variance 1), and none
exceeds `√den`. -/
theorem C53_standard {pop : ℕ} {den : ℝ} {numFeature numData : ℕ} {sel : ℕ → Bool}
    {data out : List (List ℂ)} (h : Normalised pop den numFeature numData sel data out)
    (hden : 0 < den) (hp : pop ≤ numData) {j : ℕ} (hj : j < numFeature) (hs : sel j = true)
    (hne : Varies data pop j) :
    colMean out pop j = 0 ∧ colVar out pop den j = 1 ∧ ∀ i < pop, |(entry out i j).re| ≤ Real.sqrt den := by
  have hpos : 0 < pop := by obtain ⟨i, hi, -⟩ := hne; omega
  have hp' : (0 : ℝ) < pop := by exact_mod_cast hpos
  have hre : ∀ i < pop, (entry out i j).re =
      ((entry data i j).re - colMean data pop j) / Real.sqrt (colVar data pop den j) := by
    intro i hi
    rw [h.vals i (by omega) j hj hs, Complex.ofReal_re]
  have hvar : 0 < colVar data pop den j := colVar_pos hden hne
  have hsum := mul_pos hvar hden
  rw [colVar, div_mul_cancel₀ _ hden.ne'] at hsum
  have hstd : 0 < Real.sqrt (colVar data pop den j) := Real.sqrt_pos.mpr hvar
  have hmean : colMean out pop j = 0 := by
    unfold colMean
    rw [sum_congr rfl fun i hi => hre i (mem_range.mp hi), ← Finset.sum_div, sum_sub_distrib, sum_const,
      card_range, nsmul_eq_mul]
    rw [show (pop : ℝ) * colMean data pop j = ∑ i ∈ range pop, (entry data i j).re by
      unfold colMean; field_simp]
    simp
  have hsq : ∑ i ∈ range pop, (entry out i j).re ^ 2 = den := by
    rw [sum_congr rfl fun i hi => by rw [hre i (mem_range.mp hi), div_pow], ← Finset.sum_div,
      Real.sq_sqrt hvar.le]
    unfold colVar
    field_simp
  refine ⟨hmean, ?_, fun i hi => ?_⟩
  · unfold colVar
    rw [hmean]
    simp only [sub_zero]
    rw [hsq, div_self hden.ne']
  · refine Real.abs_le_sqrt ?_
    rw [← hsq]
    exact single_le_sum (f := fun i => (entry out i j).re ^ 2) (fun i _ => sq_nonneg _)
      (mem_range.mpr hi)

/-- **C53 (units).** Changing the unit and the origin of a selected column (`x ↦ a x + b`, `a > 0`) in
all records does not change its normalised values. -/
theorem C53_units {pop : ℕ} {den : ℝ} {numFeature numData : ℕ} {sel : ℕ → Bool}
    {data out data' out' : List (List ℂ)} (h : Normalised pop den numFeature numData sel data out)
    (h' : Normalised pop den numFeature numData sel data' out') (hpos : 0 < pop) {j : ℕ}
    (hj : j < numFeature) (hs : sel j = true) {a b : ℝ} (ha : 0 < a)
    (hx : ∀ i, i < pop ∨ i < numData → (entry data' i j).re = a * (entry data i j).re + b) (i : ℕ)
    (hi : i < numData) : entry out' i j = entry out i j := by
  have hp' : (0 : ℝ) < pop := by exact_mod_cast hpos
  have hm : colMean data' pop j = a * colMean data pop j + b := by
    unfold colMean
    rw [sum_congr rfl fun i hi => hx i (.inl (mem_range.mp hi)), sum_add_distrib, ← mul_sum, sum_const, card_range,
      nsmul_eq_mul]
    field_simp
  have hv : colVar data' pop den j = a ^ 2 * colVar data pop den j := by
    unfold colVar
    rw [hm, ← mul_div_assoc, mul_sum]
    congr 1
    refine sum_congr rfl fun i hi => ?_
    rw [hx i (.inl (mem_range.mp hi))]; ring
  rw [h'.vals i hi j hj hs, h.vals i hi j hj hs, hm, hv, hx i (.inr hi), Real.sqrt_mul (sq_nonneg a),
    Real.sqrt_sq ha.le, show a * (entry data i j).re + b - (a * colMean data pop j + b) =
      a * ((entry data i j).re - colMean data pop j) by ring, mul_div_mul_left _ _ ha.ne']

/-! ## lr_toy.go -/

variable {C : Ctx} {E : Encoder C (List ℂ)} {M ε δ : ℝ}

theorem mapM_ok {α β : Type} {f : α → Go β} {g : α → β} : ∀ {l : List α}, (∀ x ∈ l, f x = .ok (g x)) →
    l.mapM f = .ok (l.map g)
  | [], _ => rfl
  | a :: l, h => by
    rw [List.mapM_cons, h a List.mem_cons_self, Go.ok_bind,
      mapM_ok fun x hx => h x (List.mem_cons_of_mem _ hx)]
    rfl

theorem toySlices_ok {l : List ℂ} (h : 210 ≤ l.length) :
    (toySlices.mapM fun ab => slice l ab.1 ab.2) =
      .ok (toySlices.map fun ab => (l.take ab.2).drop ab.1) := by
  refine mapM_ok fun ab hab => ?_
  have : ab.1 ≤ ab.2 ∧ ab.2 ≤ 210 := by
    simp only [toySlices, List.mem_cons, List.not_mem_nil, or_false] at hab
    rcases hab with rfl | rfl | rfl | rfl | rfl <;> simp
  rw [slice, if_pos ⟨this.1, by omega⟩]

attribute [local irreducible] setupCRS

/-- **C54 (lr_toy.go).** For all data, labels, random samples, keys and iteration orders such that the
normalised data are within `MainOk`, no normalised column constant over the batch (Go would go on with
NaN), and at least 210 slots: `main` runs to its end.  It prints the five
slices of a decoding of the packed normalised data, its result is the decoding of a polynomial whose slot 0
holds the plain prediction of the training on the normalised data, up to the error of `mainInferVal`; and
`correct` is the comparison of that result with the label. -/
theorem C54_toy_main {prm0 : CPar C} {sq : ℝ → ℝ} {logN : ℕ} {cfg : MainCfg} [NeZero cfg.slotNum] {rnd : MainRand C}
    {data0 data : List (List ℂ)} {labels : List ℂ} {r : ℚ} {K : ℕ} {D B : ℤ}
    (hnorm : normalise prm0.fl sq cfg.hp.batchSize cfg.hp.batchSize cfg.numFeature cfg.numData toyCols
      data0 = .ok data)
    (_hstd : ∀ j < cfg.numFeature, toyCols j = true →
      flStd prm0.fl sq data0 cfg.hp.batchSize cfg.hp.batchSize j ≠ 0)
    (h : MainOk E prm0 logN cfg rnd data labels r K D B M ε δ) (h210 : 210 ≤ cfg.slotNum) :
    ∃ out, lrToyMain E prm0 sq logN cfg rnd data0 labels = .ok out ∧
      (∃ zd, Reads E (freshVal prm0 (freshErr C prm0.scale B ε) (toSlots cfg.slotNum (mainZ cfg data)))
          zd ∧ out.zPrints = toySlices.map fun ab => (zd.take ab.2).drop ab.1) ∧
      ∃ vr, mainInferVal (mainPar prm0 logN rnd) cfg data labels D B (freshErr C prm0.scale B ε) =
          some vr ∧
        vr.x 0 = plainPredict cfg data labels ∧
        vr.lvl = C.nQ - 1 - 4 * cfg.numIter - 3 ∧ 0 < vr.scale ∧ Reads E vr out.result ∧
        out.correct = verdict (out.result.getD 0 0).re (cfg.isCls (labels.getD cfg.testId 0).re) := by
  have hn2 := h.two
  have hM0 : 0 ≤ M := zero_le_one.trans h.hyper.one
  have hlv := h.levels
  have hdr := h.drift
  have hps : (mainPar prm0 logN rnd).scale = prm0.scale := rfl
  have hpf : (mainPar prm0 logN rnd).fl = prm0.fl := rfl
  have hpc : (mainPar prm0 logN rnd).crs = setupCRS logN rnd.sample rnd.sample' := rfl
  have hpe : { prm0 with crs := (mainPar prm0 logN rnd).crs } = mainPar prm0 logN rnd := rfl
  generalize mainPar prm0 logN rnd = prm at hps hpf hpc hpe ⊢
  have H : Chain prm r K := by
    have := h.chain
    exact ⟨this.one, this.pos, this.pow, by rw [hps]; exact this.scale, by rw [hps]; exact this.lo,
      by rw [hps]; exact this.hi⟩
  have hfl : prm.fl.Ok := by rw [hpf]; exact h.fl
  obtain ⟨l, el, ll, lt, -⟩ := relabel_spec cfg.isCls h.labelLen
  obtain ⟨ids, kb, pk, X⟩ := main_keys h.toRunOk hps hpf hpc
  rw [hps] at X
  obtain ⟨z, label, row, test, ez, elb, erow, et, zl, zM, labl, lab01, tl, tM, -, vb, vv, vr, ev, ei,
    hvr, lvr, svr⟩ := main_values h H hfl (companies cfg.numCompany).toFinset.card
      (freshErr C prm0.scale B ε) ll lt
  have rep : ∀ c : ℂ, ‖c‖ ≤ M → ∀ x ∈ List.replicate cfg.slotNum c, ‖x‖ ≤ M := by
    intro c hc x hx
    rw [List.eq_of_mem_replicate hx]; exact hc
  have rl : ∀ c : ℂ, (List.replicate cfg.slotNum c).length = cfg.slotNum := fun c => by simp
  have rz : ∀ x ∈ List.replicate cfg.slotNum (0 : ℂ), ‖x‖ ≤ M := rep 0 (by simpa using hM0)
  have tz : toSlots cfg.slotNum (List.replicate cfg.slotNum (0 : ℂ)) = 0 := by
    funext i; rw [toSlots_replicate]; rfl
  obtain ⟨e1, beta, q1, o1, f1⟩ := X.enc1 (enc := CEnc.new prm) ⟨rfl, rfl⟩ 0 _ (rl 0) rz
  obtain ⟨e2, v, q2, o2, f2⟩ := X.enc1 o1 1 _ (rl 0) rz
  obtain ⟨e3, zc, q3, o3, f3⟩ := X.encAll o2 1 2 z zl zM
  obtain ⟨e4, c5, q4, o4, f4⟩ := X.enc1' o3 3 _ _ (h.hyper.near5 X.fl)
  obtain ⟨e5, c9, q5, o5, f5⟩ := X.enc1' o4 4 _ _ (h.hyper.near9 X.fl)
  rw [hpf] at q4 q5
  obtain ⟨e6, ct, q6, -, f6⟩ := X.encAll o5 2 5 test tl tM
  rw [tz] at f1 f2
  have hk := X.consts h.hyper cfg.numCol f4 f5
  have hd := X.data h.hyper f3 labl lab01
  obtain ⟨dec1, zd, y1, y2, y3, y4⟩ := decrypt_shows h.good E (dec := CDec.new prm) rfl f3 le_rfl X.keyed
    X.sk (rnd.dec 0)
  have y3 : dec1.pool.level = C.nQ - 1 := y3
  have zdl : zd.length = cfg.slotNum := by
    obtain ⟨m, -, rfl⟩ := y4
    rw [h.accurate.len]
  obtain ⟨⟨b', v'⟩, m', t1, t2, t3, -⟩ := lrTrain_sim (realHE_sim X.setup rnd.sch) (constsShow hk)
    cfg.numRow cfg.numCol (dataShow hd) cfg.numIter f1 f2 _ ev (Mach.start kb) X.mach
  have t3 : Shows (fun id => (rnd.party id).s) (companies cfg.numCompany).toFinset b' vb := t3
  obtain ⟨res, m'', g1, g2, g3⟩ := infer_sim (realHE_sim X.setup rnd.sch) (constsShow hk) cfg.numFeature
    f6 t3 _ ei m' t2
  have g3 : Shows (fun id => (rnd.party id).s) (companies cfg.numCompany).toFinset res vr := g3
  obtain ⟨dec', o, d1, -, -, d4⟩ := decrypt_shows h.good E y2 g3 (by omega) X.keyed X.sk (rnd.dec 1)
  have ol : 0 < o.length := by
    obtain ⟨m, -, rfl⟩ := d4
    rw [h.accurate.len]; omega
  have tl' : cfg.testId < l.length := by rw [ll]; exact lt_of_lt_of_le h.testId h.labelLen
  have htest : cfg.testId < data.length := lt_of_lt_of_le h.testId h.dataLen
  have hrow : row = data.getD cfg.testId [] := by
    rw [idx_of_lt htest] at erow
    rw [List.getD_eq_getElem _ _ htest]
    exact (Except.ok.inj erow).symm
  obtain ⟨cb, hcb⟩ := h.cols
  have hz : mainZ cfg data = z := by rw [mainZ, ez]; rfl
  have hlab : mainLabel cfg labels = label := by
    rw [mainLabel, ← packLabel_congr (l := l), elb]
    · rfl
    · rw [h.shape]; exact Nat.mul_le_mul_right _ h.batch
    · rw [hcb]; positivity
    · rw [ll]; exact h.batchData.trans h.labelLen
    · rw [List.length_map]; exact h.batchData.trans h.labelLen
    · intro i hi
      have hi' : i < labels.length := lt_of_lt_of_le hi (h.batchData.trans h.labelLen)
      rw [lt i (lt_of_lt_of_le hi h.batchData), List.getD_eq_getElem _ _ hi',
        List.getD_eq_getElem _ _ (by simpa using hi'), List.getElem_map]
  have htst : mainTest cfg data = test := by rw [mainTest, ← hrow, et]; rfl
  refine ⟨⟨toySlices.map fun ab => (zd.take ab.2).drop ab.1, o, judge (o.getD 0 0) (l.getD cfg.testId 0)⟩,
    ?_, ⟨zd, ?_, rfl⟩, vr, ?_, hvr, lvr, svr, d4, ?_⟩
  · unfold lrToyMain
    simp only [C53_columns, el, X.ids_eq, X.gen, hpe, X.pk_eq, q1, q2, hnorm, q3, y1, toySlices_ok (h210.trans zdl.ge),
      ez, elb, q4, q5, Go.ok_bind]
    erw [t1]
    simp only [Go.ok_bind, erow, et, q6]
    erw [g1]
    simp only [Go.ok_bind, d1, idx_of_lt ol, idx_of_lt tl', Go.pure_eq]
    rw [List.getD_eq_getElem _ _ ol, List.getD_eq_getElem _ _ tl']
  · rw [hz]
    have : freshVal prm0 (freshErr C prm0.scale B ε) (toSlots cfg.slotNum z) =
      freshVal prm (freshErr C prm0.scale B ε) (toSlots cfg.slotNum z) := by
      unfold freshVal; rw [hps]
    rw [this]; exact y4
  · rw [mainInferVal, mainTrainVal, hz, hlab, htst, ev]
    exact ei
  · rw [lt _ h.testId, judge_target]

/-- **C54 (accuracy).** With room in the moduli, the printed numbers are the entries of the packed
normalised data up to encryption and decoding error, the result is within error of the plain
prediction, and `correct` is what the plain prediction gives unless that lies within the error of `1/2`. -/
theorem C54_accuracy {prm0 : CPar C} {sq : ℝ → ℝ} {logN : ℕ} {cfg : MainCfg} [NeZero cfg.slotNum] {rnd : MainRand C}
    {data0 data : List (List ℂ)} {labels : List ℂ} {r : ℚ} {K : ℕ} {D B : ℤ}
    (hnorm : normalise prm0.fl sq cfg.hp.batchSize cfg.hp.batchSize cfg.numFeature cfg.numData toyCols
      data0 = .ok data) (hstd : ∀ j < cfg.numFeature, toyCols j = true →
      flStd prm0.fl sq data0 cfg.hp.batchSize cfg.hp.batchSize j ≠ 0)
    (h : MainOk E prm0 logN cfg rnd data labels r K D B M ε δ) (h210 : 210 ≤ cfg.slotNum) {out : ToyOut}
    (ho : lrToyMain E prm0 sq logN cfg rnd data0 labels = .ok out) :
    ((∀ i j, ‖entry data i j‖ + freshErr C prm0.scale B ε ≤ M) →
      2 * (prm0.scale * M) < C.qProd (C.nQ - 1) →
      ∀ (k : ℕ) (a b : ℕ), toySlices[k]? = some (a, b) → ∃ p, out.zPrints[k]? = some p ∧
        p.length = b - a ∧ ∀ s, a ≤ s → s < b →
        ‖p.getD (s - a) 0 - (if s / cfg.numCol < cfg.hp.batchSize ∧ s % cfg.numCol < cfg.numFeature then
          entry data (s / cfg.numCol) (s % cfg.numCol) else 0)‖ ≤ freshErr C prm0.scale B ε + δ) ∧
    ∀ vr, mainInferVal (mainPar prm0 logN rnd) cfg data labels D B (freshErr C prm0.scale B ε) =
        some vr → vr.In C M →
      ‖out.result.getD 0 0 - plainPredict cfg data labels‖ ≤ vr.err + δ ∧
      (vr.err + δ < |(plainPredict cfg data labels).re - 1 / 2| →
        out.correct = verdict (plainPredict cfg data labels).re
          (cfg.isCls (labels.getD cfg.testId 0).re)) := by
  obtain ⟨out', ho', ⟨zd, hzd, hzp⟩, vr', ei, hx, -, hs, hR, hc⟩ := C54_toy_main hnorm hstd h h210
  obtain rfl : out' = out := by rw [ho] at ho'; exact (Except.ok.inj ho').symm
  have hM0 : 0 ≤ M := zero_le_one.trans h.hyper.one
  refine ⟨fun hle hq k a b hab => ?_, fun vr hv hin => ?_⟩
  · obtain ⟨cb, hcb⟩ := h.cols
    have hcols : 0 < cfg.numCol := by rw [hcb]; positivity
    obtain ⟨z, ez, zl, hz⟩ := packZ_spec (slotNum := cfg.slotNum) (cols := cfg.numCol)
      (F := cfg.numFeature) (B := cfg.hp.batchSize) (data := data)
      (by rw [h.shape]; exact Nat.mul_le_mul_right _ h.batch) h.feat (h.batchData.trans h.dataLen)
      fun i hi => h.rowLen i (lt_of_lt_of_le hi h.batchData)
    have hzz : mainZ cfg data = z := by rw [mainZ, ez]; rfl
    have hzs : ∀ s, z.getD s 0 = if s / cfg.numCol < cfg.hp.batchSize ∧
        s % cfg.numCol < cfg.numFeature then entry data (s / cfg.numCol) (s % cfg.numCol) else 0 := by
      intro s
      rw [← hz _ _ (Nat.mod_lt _ hcols), Nat.div_add_mod]
    have hsc : 0 < prm0.scale := by have := h.chain.scale; linarith
    have hE0 : freshErr C prm0.scale B ε ≤ M := by
      have := hle 0 0
      have := norm_nonneg (entry data 0 0)
      linarith
    rw [hzz] at hzd
    have zdl : zd.length = cfg.slotNum := by
      obtain ⟨m, -, rfl⟩ := hzd
      rw [h.accurate.len]
    have hcl := hzd.close h.N_eq h.logN_pos h.slots.symm h.accurate hsc ⟨fun i => by
      show ‖toSlots cfg.slotNum z i‖ + freshErr C prm0.scale B ε ≤ M
      rw [toSlots, hzs]
      split_ifs
      · exact hle _ _
      · simpa using hE0, by exact_mod_cast hq⟩
    have hb : a ≤ b ∧ b ≤ 210 := by
      have hab : (a, b) ∈ toySlices := List.mem_of_getElem? hab
      simp only [toySlices, List.mem_cons, List.not_mem_nil, or_false, Prod.mk.injEq] at hab
      omega
    refine ⟨(zd.take b).drop a, by rw [hzp, List.getElem?_map, hab]; rfl, by simp; omega,
      fun s h1 h2 => ?_⟩
    have e : ((s : ZMod cfg.slotNum)).val = s := ZMod.val_cast_of_lt (by omega)
    have h3 := hcl (s : ZMod cfg.slotNum)
    have h4 : toSlots cfg.slotNum z (s : ZMod cfg.slotNum) = z.getD s 0 := by rw [toSlots, e]
    have h5 : ((zd.take b).drop a).getD (s - a) 0 = zd.getD s 0 := by
      rw [List.getD_eq_getElem?_getD, List.getElem?_drop, show a + (s - a) = s by omega,
        List.getElem?_take, if_pos h2, ← List.getD_eq_getElem?_getD]
    rw [e] at h3
    rw [h5, ← hzs, ← h4]
    exact h3
  · obtain rfl : vr = vr' := by rw [hv] at ei; simpa using ei
    have h1 := hR.close h.N_eq h.logN_pos h.slots.symm h.accurate hs hin 0
    rw [ZMod.val_zero, hx] at h1
    exact ⟨h1, fun hm => by rw [hc]; exact verdict_of_close h1 hm⟩

/-! ## lr_minibatch_toy.go -/

/-- The inference loop. -/
theorem inferLoop_spec {prm : CPar C} {n : ℕ} [NeZero n] {logN numCompany : ℕ} {rnd : MainRand C}
    {D B : ℤ} {η : ℝ} {ids : IDSet} {kb : KeyBag C} {pk : PublicKey C}
    (X : MainKeys E prm n logN numCompany rnd D B M η ids kb pk) {scale : ℚ}
    (hE : E.Accurate scale n M ε δ) (h2 : 2 ≤ n)
    {k : Consts (CCt C) (RQ C × ℚ)} {kx : Consts (Slots n ℂ) (Slots n ℂ)}
    (hk : ConstsRel (Fresh prm (fun id => (rnd.party id).s) (companies numCompany).toFinset η)
      (Encodes prm η) k kx) {F : ℕ} {data : List (List ℂ)} {l : List ℂ} {beta : CCt C} {vb : AVal n}
    (hb : Shows (fun id => (rnd.party id).s) (companies numCompany).toFinset beta vb)
    {t L : ℕ} {test : ℕ → List ℂ} {vr : ℕ → AVal n}
    (hrow : ∀ i < t, ∃ row, idx data i = .ok row ∧ packTest n F row = .ok (test i))
    (htl : ∀ i < t, (test i).length = n) (htM : ∀ i < t, ∀ x ∈ test i, ‖x‖ ≤ M) (hl : t ≤ l.length)
    (hvr : ∀ i < t, inferVal prm n (companies numCompany).toFinset.card D 1 B η kx F
      (toSlots n (test i)) vb = some (vr i)) (hL : ∀ i < t, (vr i).lvl = L)
    (sch dsch : ℕ → Sched) (u w : ℕ → ℕ) {mach : Mach C} {dec : CDec C} {enc : CEnc C}
    (hm : mach.Ok (companies numCompany).toFinset kb.rk) (hd : dec.pool.isNTT = false)
    (hdL : L ≤ dec.pool.level) (he : EncOk prm enc) :
    ∃ st, forUp t (inferStep E prm kb sch dsch (fun i => rnd.enc (u i))
        (fun i => rnd.ids.f (w i) (GoMap.keys ids)) pk k n F data l beta) ⟨mach, dec, enc, [], 0⟩ = .ok st ∧
      st.mach.Ok (companies numCompany).toFinset kb.rk ∧ st.dec.pool.isNTT = false ∧
      L ≤ st.dec.pool.level ∧ EncOk prm st.enc ∧ st.results.length = t ∧
      (∀ i < t, ∃ o, st.results[i]? = some o ∧ Reads E (vr i) o) ∧
      st.correct = ∑ i ∈ range t, judge ((st.results.getD i []).getD 0 0) (l.getD i 0) := by
  induction t with
  | zero => exact ⟨_, rfl, hm, hd, hdL, he, rfl, fun i hi => absurd hi (by omega), by simp⟩
  | succ t ih =>
    obtain ⟨st, e1, m1, d1, d2, o1, p1, p2, p3⟩ := ih (fun i hi => hrow i (by omega))
      (fun i hi => htl i (by omega)) (fun i hi => htM i (by omega)) (by omega)
      (fun i hi => hvr i (by omega)) (fun i hi => hL i (by omega))
    obtain ⟨row, erow, et⟩ := hrow t (by omega)
    obtain ⟨enc', ct, q, o2, f⟩ := X.encAll o1 (w t) (u t) (test t) (htl t (by omega)) (htM t (by omega))
    obtain ⟨res, m', g1, g2, g3⟩ := infer_sim (realHE_sim X.setup sch) (constsShow hk) F
      f hb _ (hvr t (by omega)) st.mach m1
    have g3 : Shows (fun id => (rnd.party id).s) (companies numCompany).toFinset res (vr t) := g3
    obtain ⟨dec', o, y1, y2, y3, y4⟩ := decrypt_shows X.setup.good E d1 g3
      (by rw [hL t (by omega)]; exact d2) X.keyed X.sk (dsch t)
    have ol : 0 < o.length := by
      obtain ⟨m, -, rfl⟩ := y4
      rw [hE.len]; omega
    have tl : t < l.length := by omega
    refine ⟨⟨m', dec', enc', st.results ++ [o], st.correct + judge (o.getD 0 0) (l.getD t 0)⟩, ?_, g2, y2,
      by show L ≤ dec'.pool.level; rw [y3, hL t (by omega)], o2, by simp [p1], fun i hi => ?_, ?_⟩
    · show (forUp t (inferStep E prm kb sch dsch (fun i => rnd.enc (u i))
        (fun i => rnd.ids.f (w i) (GoMap.keys ids)) pk k n F data l beta) ⟨mach, dec, enc, [], 0⟩ >>= _) = _
      rw [e1]
      simp only [Go.ok_bind, inferStep, erow, et, q]
      erw [g1]
      simp only [Go.ok_bind, y1, idx_of_lt ol, idx_of_lt tl, Go.pure_eq]
      rw [List.getD_eq_getElem _ _ ol, List.getD_eq_getElem _ _ tl]
    · rcases Nat.lt_succ_iff_lt_or_eq.mp hi with hi | rfl
      · obtain ⟨o', h1, h2⟩ := p2 i hi
        exact ⟨o', by
          show (st.results ++ _)[i]? = _
          rw [List.getElem?_append_left (by omega), h1], h2⟩
      · exact ⟨o, by
          show (st.results ++ _)[i]? = _
          rw [List.getElem?_append_right (by omega), p1]; simp, y4⟩
    · show st.correct + _ = ∑ i ∈ range (t + 1), judge (((st.results ++ [o]).getD i []).getD 0 0) _
      rw [sum_range_succ, p3]
      congr 1
      · refine sum_congr rfl fun i hi => ?_
        rw [List.getD_append _ _ _ _ (by rw [p1]; exact mem_range.mp hi)]
      · rw [List.getD_append_right _ _ _ _ (by omega), p1]; simp

/-- The configuration with another test record. -/
abbrev MbCfg.at (cfg : MbCfg) (i : ℕ) : MbCfg := { cfg with testId := i }

instance {cfg : MbCfg} [h : NeZero cfg.numSlots] (i : ℕ) : NeZero (cfg.at i).numSlots := h

variable {prm0 : CPar C} {sq : ℝ → ℝ} {logN : ℕ} {cfg : MbCfg} {rnd : MainRand C} {data0 data : List (List ℂ)}
  {labels : List ℂ} {r : ℚ} {K : ℕ} {D B : ℤ}

theorem MbOk.at (h : MbOk E prm0 logN cfg rnd data labels r K D B M ε δ) {i : ℕ} (hi : i < cfg.numData) :
    MbOk E prm0 logN (cfg.at i) rnd data labels r K D B M ε δ :=
  ⟨h.toRunOk, h.rows, h.full, h.mask, h.batches, h.trainData, h.dataLen, h.labelLen, h.rowLen, h.dataLe,
    hi⟩

/-- **C55 (lr_minibatch_toy.go).** For all data, labels, random samples, keys and iteration orders such
that the normalised data are within `MbOk` and no normalised column is constant over the training
records: `main` runs to its end.  It prints the first two numbers of decodings of the Nesterov iterates of
the plain training in minibatches on the normalised data, up to the error of `mbMainVal`; the result for
record `i` is the decoding of a polynomial whose slot 0 holds the plain prediction for it, up to the
error of `mbInferVal`; and `correct` counts the records whose result agrees with their label. -/
theorem C55_mb_toy_main [NeZero cfg.numSlots]
    (hnorm : normalise prm0.fl sq cfg.numTrain (cfg.numTrain - 1) cfg.numFeature cfg.numData toyCols
      data0 = .ok data) (_hstd : ∀ j < cfg.numFeature, toyCols j = true →
      flStd prm0.fl sq data0 cfg.numTrain (cfg.numTrain - 1) j ≠ 0)
    (h : MbOk E prm0 logN cfg rnd data labels r K D B M ε δ) :
    ∃ out, mbToyMain E prm0 sq logN cfg rnd data0 labels = .ok out ∧ out.prints.length = cfg.numIter ∧
      (∀ t < cfg.numIter, ∃ vb vv bd vd,
        mbMainVal (mainPar prm0 logN rnd) cfg data labels D B (freshErr C prm0.scale B ε) (t + 1) =
          some (vb, vv) ∧
        Replicated cfg.maskW vb.x (fun c => if c < cfg.numFeature then
          (plainMbTrain cfg data labels (t + 1)).1 c else 0) ∧
        Replicated cfg.maskW vv.x (fun c => if c < cfg.numFeature then
          (plainMbTrain cfg data labels (t + 1)).2 c else 0) ∧
        vb.lvl = C.nQ - 1 - 4 * (t + 1) ∧ vv.lvl = C.nQ - 1 - 4 * (t + 1) ∧
        0 < vb.scale ∧ 0 < vv.scale ∧
        Reads E vb bd ∧ Reads E vv vd ∧ out.prints[t]? = some (bd.take 2, vd.take 2)) ∧
      out.results.length = cfg.numData ∧
      (∀ i < cfg.numData, ∃ vr o,
        mbInferVal (mainPar prm0 logN rnd) (cfg.at i) data labels D B (freshErr C prm0.scale B ε) =
          some vr ∧
        vr.x 0 = plainMbPredict (cfg.at i) data labels ∧
        vr.lvl = C.nQ - 1 - 4 * cfg.numIter - 3 ∧ 0 < vr.scale ∧
        out.results[i]? = some o ∧ Reads E vr o) ∧
      out.correct = ∑ i ∈ range cfg.numData,
        verdict ((out.results.getD i []).getD 0 0).re (cfg.isCls (labels.getD i 0).re) := by
  have hn2 := h.two
  have hM0 : 0 ≤ M := zero_le_one.trans h.hyper.one
  have hlv := h.levels
  have hdr := h.drift
  have hps : (mainPar prm0 logN rnd).scale = prm0.scale := rfl
  have hpf : (mainPar prm0 logN rnd).fl = prm0.fl := rfl
  have hpc : (mainPar prm0 logN rnd).crs = setupCRS logN rnd.sample rnd.sample' := rfl
  have hpe : { prm0 with crs := (mainPar prm0 logN rnd).crs } = mainPar prm0 logN rnd := rfl
  generalize mainPar prm0 logN rnd = prm at hps hpf hpc hpe ⊢
  have H : Chain prm r K := by
    have := h.chain
    exact ⟨this.one, this.pos, this.pow, by rw [hps]; exact this.scale, by rw [hps]; exact this.lo,
      by rw [hps]; exact this.hi⟩
  have hfl : prm.fl.Ok := by rw [hpf]; exact h.fl
  obtain ⟨l, el, ll, lt, -⟩ := relabel_spec cfg.isCls h.labelLen
  obtain ⟨ids, kb, pk, X⟩ := main_keys h.toRunOk hps hpf hpc
  rw [hps] at X
  obtain ⟨pz, pl, zl, zM, labl, lab01⟩ := mb_packs h ll lt
  obtain ⟨hval, -⟩ := mb_values h H hfl (freshErr C prm0.scale B ε) ll lt
  have hinf := fun i (hi : i < cfg.numData) => (mb_values (h.at hi) H hfl (freshErr C prm0.scale B ε) ll lt).2
  have rep : ∀ c : ℂ, ‖c‖ ≤ M → ∀ x ∈ List.replicate cfg.numSlots c, ‖x‖ ≤ M := by
    intro c hc x hx
    rw [List.eq_of_mem_replicate hx]; exact hc
  have rl : ∀ c : ℂ, (List.replicate cfg.numSlots c).length = cfg.numSlots := fun c => by simp
  have rz : ∀ x ∈ List.replicate cfg.numSlots (0 : ℂ), ‖x‖ ≤ M := rep 0 (by simpa using hM0)
  have tz : toSlots cfg.numSlots (List.replicate cfg.numSlots (0 : ℂ)) = 0 := by
    funext i; rw [toSlots_replicate]; rfl
  obtain ⟨e1, beta, q1, o1, f1⟩ := X.enc1 (enc := CEnc.new prm) ⟨rfl, rfl⟩ 0 _ (rl 0) rz
  obtain ⟨e2, v, q2, o2, f2⟩ := X.enc1 o1 1 _ (rl 0) rz
  obtain ⟨e3, zc, q3, o3, f3⟩ := encryptZ_spec X pz zl zM
    (fun b i => 4 + b * cfg.shape.numCtPerBatch + i) (fun b i => 1 + b * cfg.shape.numCtPerBatch + i)
    o2 beta
  obtain ⟨lv, elv, hlv'⟩ := labelVectors_spec pl
  obtain ⟨e4, c5, q4, o4, f4⟩ := X.enc1' o3 2 _ _ (h.hyper.near5 X.fl)
  obtain ⟨e5, c9, q5, o5, f5⟩ := X.enc1' o4 3 _ _ (h.hyper.near9 X.fl)
  rw [hpf] at q4 q5
  rw [tz] at f1 f2
  have hk := X.consts h.hyper cfg.maskW f4 f5
  obtain ⟨ra, hra⟩ := h.rows
  have hct := numCtPerBatch_pos h.batches (by rw [hra]; positivity)
  obtain ⟨st, vb, vv, t1, t2, t3, t4, t5, t6, t7, t8, t9, t10⟩ := mbLoop_spec X H h.accurate hM0 hn2
    hk cfg.shape rfl h.batches hct
    (d := fun b i => mainData E prm cfg.hp (at2 beta zc b i) (at2 [] lv b i))
    (dx := fun b i => dataSlots cfg.numSlots cfg.hp (mbZ cfg data b i) (mbLabel cfg labels b i))
    (fun b hb i hi => by
      rw [hlv' b hb i hi]
      exact X.data h.hyper (f3 b hb i hi) (labl b i) (lab01 b i)) f1 f2 o5 rnd.sch rnd.dec
    (fun t => 4 + cfg.shape.numBatch * cfg.shape.numCtPerBatch + t) cfg.numIter (by omega) (by omega)
  have hv : ∀ i, ∃ w : AVal cfg.numSlots, i < cfg.numData →
      mbInferVal prm (cfg.at i) data labels D B (freshErr C prm0.scale B ε) = some w ∧
      w.x 0 = plainMbPredict (cfg.at i) data labels ∧
      w.lvl = C.nQ - 1 - 4 * cfg.numIter - 3 ∧ 0 < w.scale := by
    intro i
    by_cases hi : i < cfg.numData
    · obtain ⟨row, w, -, -, -, -, h1, h2, h3, h4⟩ := hinf i hi
      exact ⟨w, fun _ => ⟨h1, h2, h3, h4⟩⟩
    · exact ⟨freshVal prm 0 0, fun h => absurd h hi⟩
  choose vr hvr using hv
  obtain ⟨it, i1, -, -, -, -, i2, i3, i4⟩ := inferLoop_spec X h.accurate hn2 hk (F := cfg.numFeature)
    (data := data) (l := l) t5 (t := cfg.numData) (L := C.nQ - 1 - 4 * cfg.numIter - 3)
    (test := fun i => mbTest (cfg.at i) data) (vr := vr)
    (fun i hi => by
      obtain ⟨row, w, h1, h2, -⟩ := hinf i hi
      exact ⟨row, h1, h2⟩)
    (fun i hi => by
      obtain ⟨row, w, -, -, h1, -⟩ := hinf i hi
      exact h1)
    (fun i hi => by
      obtain ⟨row, w, -, -, -, h1, -⟩ := hinf i hi
      exact h1)
    (by rw [ll]; exact h.labelLen)
    (fun i hi => by
      have := (hvr i hi).1
      rw [mbInferVal, show mbMainVal prm (cfg.at i) data labels D B (freshErr C prm0.scale B ε)
        (cfg.at i).numIter = some (vb, vv) from t4] at this
      exact this)
    (fun i hi => (hvr i hi).2.2.1) rnd.sch (fun i => rnd.dec (2 * cfg.numIter + i))
    (fun i => 4 + cfg.shape.numBatch * cfg.shape.numCtPerBatch + 2 * cfg.numIter + i)
    (fun i => 1 + cfg.shape.numBatch * cfg.shape.numCtPerBatch + i) t3 t7 (by omega) t2
  refine ⟨⟨st.prints, it.results, it.correct⟩, ?_, t9, ?_, i2, fun i hi => ?_, ?_⟩
  · unfold mbToyMain
    simp only [C53_columns, el, X.ids_eq, X.gen, hpe, X.pk_eq, q1, q2, hnorm, q3, elv, q4, q5, Go.ok_bind]
    erw [t1]
    simp only [Go.ok_bind]
    erw [i1]
    rfl
  · intro t ht
    obtain ⟨wb, wv, bd, vd, a1, a2, a3, a4⟩ := t10 t ht
    obtain ⟨wb', wv', b1, b2⟩ := hval (t + 1) (by omega)
    obtain ⟨rfl, rfl⟩ : wb = wb' ∧ wv = wv' := by
      rw [mbMainVal, a1] at b1
      simpa using b1
    exact ⟨wb, wv, bd, vd, a1, b2.1, b2.2.1, b2.2.2.1, b2.2.2.2.1, b2.2.2.2.2.1, b2.2.2.2.2.2, a2, a3, a4⟩
  · obtain ⟨o, p1, p2⟩ := i3 i hi
    obtain ⟨v1, v2, v3, v4⟩ := hvr i hi
    exact ⟨vr i, o, v1, v2, v3, v4, p1, p2⟩
  · show it.correct = _
    rw [i4]
    refine sum_congr rfl fun i hi => ?_
    rw [lt i (mem_range.mp hi), judge_target]

/-- **C55 (accuracy).** With room in the moduli, the printed numbers are within error of the plain
iterates and every result is within error of the plain prediction; if no plain prediction lies within
its error of `1/2`, `correct` is the number of records that the plain model classifies correctly. -/
theorem C55_accuracy [NeZero cfg.numSlots]
    (hnorm : normalise prm0.fl sq cfg.numTrain (cfg.numTrain - 1) cfg.numFeature cfg.numData toyCols
      data0 = .ok data) (hstd : ∀ j < cfg.numFeature, toyCols j = true →
      flStd prm0.fl sq data0 cfg.numTrain (cfg.numTrain - 1) j ≠ 0)
    (h : MbOk E prm0 logN cfg rnd data labels r K D B M ε δ) {out : MbToyOut}
    (ho : mbToyMain E prm0 sq logN cfg rnd data0 labels = .ok out) :
    (∀ t < cfg.numIter, ∀ vb vv,
      mbMainVal (mainPar prm0 logN rnd) cfg data labels D B (freshErr C prm0.scale B ε) (t + 1) =
        some (vb, vv) → ∃ pb pv, out.prints[t]? = some (pb, pv) ∧ pb.length = 2 ∧ pv.length = 2 ∧
      ∀ c < 2, c < cfg.numFeature →
        (vb.In C M → ‖pb.getD c 0 - (plainMbTrain cfg data labels (t + 1)).1 c‖ ≤ vb.err + δ) ∧
        (vv.In C M → ‖pv.getD c 0 - (plainMbTrain cfg data labels (t + 1)).2 c‖ ≤ vv.err + δ)) ∧
    (∀ i < cfg.numData, ∀ vr,
      mbInferVal (mainPar prm0 logN rnd) (cfg.at i) data labels D B (freshErr C prm0.scale B ε) =
        some vr → vr.In C M →
      ‖(out.results.getD i []).getD 0 0 - plainMbPredict (cfg.at i) data labels‖ ≤ vr.err + δ) ∧
    ((∀ i < cfg.numData, ∃ vr,
      mbInferVal (mainPar prm0 logN rnd) (cfg.at i) data labels D B (freshErr C prm0.scale B ε) =
        some vr ∧ vr.In C M ∧
      vr.err + δ < |(plainMbPredict (cfg.at i) data labels).re - 1 / 2|) →
      out.correct = ∑ i ∈ range cfg.numData, verdict (plainMbPredict (cfg.at i) data labels).re
        (cfg.isCls (labels.getD i 0).re)) := by
  obtain ⟨out', ho', -, hpr, hrl, hres, hc⟩ := C55_mb_toy_main hnorm hstd h
  obtain rfl : out' = out := by rw [ho] at ho'; exact (Except.ok.inj ho').symm
  have hFw : cfg.numFeature ≤ cfg.maskW := by rw [← h.mask]; exact cfg.shape.numFeature_le
  have close : ∀ i < cfg.numData, ∀ vr,
      mbInferVal (mainPar prm0 logN rnd) (cfg.at i) data labels D B (freshErr C prm0.scale B ε) =
        some vr → vr.In C M →
      ‖(out'.results.getD i []).getD 0 0 - plainMbPredict (cfg.at i) data labels‖ ≤ vr.err + δ := by
    intro i hi vr hv hin
    obtain ⟨vr', o, ei, hx, -, hs, e, hR⟩ := hres i hi
    obtain rfl : vr = vr' := by rw [hv] at ei; simpa using ei
    have h1 := hR.close h.N_eq h.logN_pos h.slots.symm h.accurate hs hin 0
    rw [ZMod.val_zero, hx] at h1
    have eo : out'.results.getD i [] = o := by rw [List.getD_eq_getElem?_getD, e, Option.getD_some]
    rwa [eo]
  refine ⟨fun t ht vb vv hv => ?_, close, fun hm => ?_⟩
  · obtain ⟨vb', vv', bd, vd, e1, r1, r2, -, -, s1, s2, R1, R2, e2⟩ := hpr t ht
    obtain ⟨rfl, rfl⟩ : vb = vb' ∧ vv = vv' := by rw [hv] at e1; simpa using e1
    have len : ∀ {v : AVal cfg.numSlots} {o : List ℂ}, Reads E v o → o.length = cfg.numSlots := by
      rintro v o ⟨m, -, rfl⟩
      rw [h.accurate.len]
    have hn2 := h.two
    refine ⟨_, _, e2, by simp [len R1, hn2], by simp [len R2, hn2], fun c hc hF => ?_⟩
    exact ⟨fun hin => R1.print h.N_eq h.logN_pos h.slots.symm h.accurate s1 hin r1 hFw hn2 hc hF,
      fun hin => R2.print h.N_eq h.logN_pos h.slots.symm h.accurate s2 hin r2 hFw hn2 hc hF⟩
  · rw [hc]
    refine sum_congr rfl fun i hi => ?_
    obtain ⟨vr, h1, h2, h3⟩ := hm i (mem_range.mp hi)
    exact verdict_of_close (close i (mem_range.mp hi) vr h1 h2) h3

end MK.Lr
