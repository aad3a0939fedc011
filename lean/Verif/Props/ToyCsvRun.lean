import Verif.Props.ToyCsvStd

/-!
# C77: lr_toy.go and lr_minibatch_toy.go on lr/toyData.csv
-/

noncomputable section

namespace MK.Lr

open Finset
open Utils (readData)

variable {F : Fl} {feature : List (List ℂ)} {label : List ℂ}

theorem csvCol_abs_le (j i : ℕ) : |csvCol j i| ≤ 10 ^ 4 := by
  have h : (csvCell (csvRec i) j : ℝ) ≤ 10 ^ 4 := by
    have := (csvCell_lt (csvRec i) j).le
    exact_mod_cast this
  rw [csvCol_eq, abs_mul, abs_of_pos (csvUnit_pos j), Nat.abs_cast]
  have : csvUnit j ≤ 1 := by unfold csvUnit; split <;> norm_num
  nlinarith [csvUnit_pos j]

theorem rnd_real (hF : F.Ok) (q : ℚ) : |((F.rnd q : ℚ) : ℝ) - (q : ℝ)| ≤ |(q : ℝ)| / 2 ^ 53 := by
  have := hF.rel q
  exact_mod_cast this

theorem CsvTable.re (h : CsvTable F feature label) {i j : ℕ} (hi : i < 2000) (hj : j < 20) :
    entry feature i j = (((F.rnd (csvVal (csvRec i) j) : ℚ) : ℝ) : ℂ) := by
  rw [h.vals i hi j hj]; push_cast; rfl

/-- Parsing moves an entry by at most `10^-11`. -/
theorem CsvTable.near (h : CsvTable F feature label) (hF : F.Ok) {i j : ℕ} (hi : i < 2000) (hj : j < 20) :
    |(entry feature i j).re - csvCol j i| ≤ 1 / 10 ^ 11 := by
  rw [h.re hi hj, Complex.ofReal_re]
  refine (rnd_real hF _).trans ?_
  have := csvCol_abs_le j i
  rw [csvCol] at this
  rw [div_le_div_iff₀ (by norm_num) (by norm_num)]
  norm_num at this ⊢
  linarith

theorem CsvTable.outside (h : CsvTable F feature label) {i j : ℕ} (hij : ¬(i < 2000 ∧ j < 20)) :
    entry feature i j = 0 := by
  rw [entry]
  by_cases hi : i < 2000
  · rw [List.getD_eq_default _ _ (by rw [h.rows i hi]; omega)]
  · rw [List.getD_eq_default feature _ (by rw [h.len]; omega), List.getD_nil]

/-- The integers are read exactly. -/
theorem CsvTable.int (h : CsvTable F feature label) (hF : F.Ok) {i j : ℕ} (hi : i < 2000) (hj : j < 20)
    (h2 : j ≠ 2) (h7 : j ≠ 7) : entry feature i j = (csvCell (csvRec i) j : ℂ) := by
  have e : F.rnd (csvVal (csvRec i) j) = csvCell (csvRec i) j := by
    rw [csvVal, if_neg (by omega)]
    have hlt := csvCell_lt (csvRec i) j
    generalize csvCell (csvRec i) j = n at *
    have := hF.int n (by rw [abs_of_nonneg (by positivity)]; norm_num; omega)
    exact_mod_cast this
  rw [h.vals i hi j hj, e, Rat.cast_natCast]

theorem CsvTable.label_eq (h : CsvTable F feature label) (hF : F.Ok) {i : ℕ} (hi : i < 2000) :
    label.getD i 0 = (csvCell (csvRec i) 20 : ℂ) := by
  have e : F.rnd (csvVal (csvRec i) 20) = csvCell (csvRec i) 20 := by
    rw [csvVal, if_neg (by omega)]
    have hlt := csvCell_lt (csvRec i) 20
    generalize csvCell (csvRec i) 20 = n at *
    have := hF.int n (by rw [abs_of_nonneg (by positivity)]; norm_num; omega)
    exact_mod_cast this
  rw [h.labels i hi, e, Rat.cast_natCast]

theorem CsvTable.mean (h : CsvTable F feature label) (hF : F.Ok) {j : ℕ} (hj : j < 20) :
    |colMean feature 512 j - meanOf (csvCol j) 512| ≤ 1 / 10 ^ 11 :=
  meanOf_close (y := fun i => (entry feature i j).re) (by norm_num) fun i hi => h.near hF (by omega) hj

theorem CsvTable.std (h : CsvTable F feature label) (hF : F.Ok) {j : ℕ} (hj : j < 20) {den : ℝ}
    (h1 : 511 ≤ den) :
    |Real.sqrt (colVar feature 512 den j) - stdOf (csvCol j) 512 den| ≤ 3 / 10 ^ 11 := by
  refine (stdOf_close (y := fun i => (entry feature i j).re) (η := 1 / 10 ^ 11) (by norm_num)
    (by linarith) (by norm_num) fun i hi => h.near hF (by omega) hj).trans ?_
  have : Real.sqrt ((512 : ℕ) / den) ≤ 3 / 2 := by
    rw [Real.sqrt_le_left (by norm_num), div_le_iff₀ (by linarith)]
    push_cast
    linarith
  nlinarith

/-- lr/toyData.csv is data as the theorems about the toy programs ask for. -/
theorem CsvTable.toyData (h : CsvTable F feature label) (hF : F.Ok) {den : ℝ} (h1 : 511 ≤ den)
    (h2 : den ≤ 512) : ToyData feature label den 100 6 where
  hundred := le_rfl
  dataLen := by rw [h.len]
  labelLen := by rw [h.labelLen]
  rowLen i hi := by rw [h.rows i hi]
  varies j hj hc := by
    by_contra hn
    have hall : ∀ i < 512, (entry feature i j).re = (entry feature 0 j).re := by
      intro i hi
      by_contra hne
      exact hn ⟨i, hi, 0, by norm_num, hne⟩
    have hm : colMean feature 512 j = (entry feature 0 j).re := by
      rw [colMean, sum_congr rfl fun i hi => hall i (mem_range.mp hi), sum_const, card_range, nsmul_eq_mul]
      push_cast
      ring
    have hv : colVar feature 512 den j = 0 := by
      rw [colVar, hm, sum_congr rfl fun i hi => by rw [hall i (mem_range.mp hi), sub_self]]
      simp
    have hs := h.std hF hj h1
    rw [hv, Real.sqrt_zero, zero_sub, abs_neg] at hs
    have := (csv_col hj hc h1 h2).1
    have := (le_abs_self _).trans hs
    norm_num at this
    linarith
  one := by norm_num
  kappa := by norm_num
  close i hi j hj hc := by
    obtain ⟨hs, hx⟩ := csv_col hj hc h1 h2
    have a := abs_le.mp (h.near hF hi hj)
    have b := abs_le.mp (h.std hF hj h1)
    have c := abs_le.mp (hx i hi).1
    norm_num at a b c hs
    rw [abs_le]
    constructor <;> linarith [a.1, a.2, b.1, b.2, c.1, c.2]
  inside i hi j hj hc := by
    obtain ⟨hs, hx⟩ := csv_col hj hc h1 h2
    have a := abs_le.mp (h.near hF hi hj)
    have b := abs_le.mp (h.std hF hj h1)
    have c := abs_le.mp (hx i hi).2
    have d := abs_le.mp (h.mean hF hj)
    norm_num at a b c d hs
    rw [abs_le]
    constructor <;> linarith [a.1, a.2, b.1, b.2, c.1, c.2, d.1, d.2]
  outside i j hij := by
    by_cases hb : i < 2000 ∧ j < 20
    · have hc : ¬toyCols j = true := fun hc => hij ⟨hb.1, hb.2, hc⟩
      have h27 : j ≠ 2 ∧ j ≠ 7 := ⟨by rintro rfl; exact hc (by decide), by rintro rfl; exact hc (by decide)⟩
      rw [h.int hF hb.1 hb.2 h27.1 h27.2, Complex.norm_natCast]
      have := csv_check_rest hb.2 hc hb.1
      have : (csvCell (csvRec i) j : ℝ) ≤ 1 := by exact_mod_cast this
      linarith
    · rw [h.outside hb]; norm_num

/-- The standard score of entry `(i, j)` of lr/toyData.csv, with the mean and deviation of the first 512
records; the columns that are not normalised as they are. -/
def csvScore (den : ℝ) (i j : ℕ) : ℝ :=
  if toyCols j = true then (csvCol j i - meanOf (csvCol j) 512) / stdOf (csvCol j) 512 den else csvCol j i

theorem csvScore_le {den : ℝ} (h1 : 511 ≤ den) (h2 : den ≤ 512) {i j : ℕ} (hi : i < 2000) (hj : j < 20) :
    |csvScore den i j| ≤ 3.32 := by
  unfold csvScore
  split <;> rename_i hc
  · obtain ⟨hs, hx⟩ := csv_col hj hc h1 h2
    have h0 : 0 < stdOf (csvCol j) 512 den := by linarith
    rw [abs_div, abs_of_pos h0, div_le_iff₀ h0]
    exact (hx i hi).2
  · have h27 : ¬(j = 2 ∨ j = 7) := by
      rintro (rfl | rfl) <;> exact hc (by decide)
    have := csv_check_rest hj hc hi
    have h3 : (csvCell (csvRec i) j : ℝ) ≤ 1 := by exact_mod_cast this
    rw [csvCol_eq, csvUnit, if_neg h27, one_mul, Nat.abs_cast]
    linarith

/-- The normalised table is real and within `10^-8` of the standard scores. -/
theorem CsvTable.score (h : CsvTable F feature label) (hF : F.Ok) {den : ℝ} (h1 : 511 ≤ den) (h2 : den ≤ 512)
    {data : List (List ℂ)} (hn : NearNormalised (514 * 6 ^ 3 / 2 ^ 45) 512 den 20 2000 toyCols feature data)
    {i j : ℕ} (hi : i < 2000) (hj : j < 20) :
    ∃ z : ℝ, entry data i j = z ∧ |z - csvScore den i j| ≤ 1 / 10 ^ 8 := by
  unfold csvScore
  split <;> rename_i hc
  · refine ⟨(entry data i j).re, Complex.ext rfl (hn.real i hi j hj hc), ?_⟩
    obtain ⟨hs, hx⟩ := csv_col hj hc h1 h2
    have a := abs_le.mp (h.near hF hi hj)
    have b := abs_le.mp (h.std hF hj h1)
    have c := abs_le.mp (hx i hi).2
    have d := abs_le.mp (h.mean hF hj)
    have e := abs_le.mp (hn.vals i hi j hj hc)
    generalize (entry feature i j).re = x at *
    generalize csvCol j i = x' at *
    generalize colMean feature 512 j = m at *
    generalize meanOf (csvCol j) 512 = m' at *
    generalize Real.sqrt (colVar feature 512 den j) = s at *
    generalize stdOf (csvCol j) 512 den = s' at *
    have hs' : 0 < s' := by linarith
    have hs0 : 1 / 5 ≤ s := by norm_num at b; linarith [b.1]
    have key : |(x - m) / s - (x' - m') / s'| ≤ 1 / 10 ^ 9 := by
      have hpos : 0 < s := by linarith
      have e1 : (x - m) / s - (x' - m') / s' = ((x - x') - (m - m') - (x' - m') / s' * (s - s')) / s := by
        field_simp
        ring
      have hq : |(x' - m') / s'| ≤ 3.32 := by
        rw [abs_div, abs_of_pos hs', div_le_iff₀ hs', abs_le]
        exact c
      rw [e1, abs_div, abs_of_pos hpos, div_le_iff₀ hpos]
      have hp : |(x' - m') / s' * (s - s')| ≤ 3.32 * (3 / 10 ^ 11) := by
        rw [abs_mul]
        exact mul_le_mul hq (abs_le.mpr b) (abs_nonneg _) (by norm_num)
      have hp' := abs_le.mp hp
      rw [abs_le]
      norm_num at a d hp' ⊢
      constructor <;> linarith [a.1, a.2, d.1, d.2, hp'.1, hp'.2]
    have k := abs_le.mp key
    norm_num at e k ⊢
    rw [abs_le]
    constructor <;> linarith [e.1, e.2, k.1, k.2]
  · have h27 : j ≠ 2 ∧ j ≠ 7 := ⟨by rintro rfl; exact hc (by decide), by rintro rfl; exact hc (by decide)⟩
    refine ⟨csvCol j i, ?_, by rw [sub_self, abs_zero]; norm_num⟩
    rw [hn.keep i j (fun hh => hc hh.2.2), h.int hF hi hj h27.1 h27.2, csvCol_eq, csvUnit,
      if_neg (by omega), one_mul]
    push_cast
    rfl

/-- Sums over tables that are real are real. -/
theorem step_ofReal {s : Finset ℕ} {N : ℕ} {Z : ℕ → ℕ → ℂ} {z : ℕ → ℕ → ℝ} {y : ℕ → ℂ} {w : ℕ → ℝ} (a : ℝ)
    (hZ : ∀ d ∈ s, ∀ j < N, Z d j = z d j) (hy : ∀ d ∈ s, y d = w d) {j : ℕ} (hj : j < N) :
    (a : ℂ) * ∑ d ∈ s, y d * Z d j = ((a * ∑ d ∈ s, w d * z d j : ℝ) : ℂ) := by
  push_cast
  exact congrArg _ (sum_congr rfl fun d hd => by rw [hZ d hd j hj, hy d hd])

theorem dot_ofReal {N : ℕ} {u v : ℕ → ℂ} {p q : ℕ → ℝ} (hu : ∀ j < N, u j = p j) (hv : ∀ j < N, v j = q j) :
    ∑ j ∈ range N, u j * v j = ((∑ j ∈ range N, p j * q j : ℝ) : ℂ) := by
  push_cast
  exact sum_congr rfl fun j hj => by rw [hu j (mem_range.mp hj), hv j (mem_range.mp hj)]

theorem CsvTable.table (h : CsvTable F feature label) (hF : F.Ok) {den : ℝ} (h1 : 511 ≤ den) (h2 : den ≤ 512)
    {data : List (List ℂ)} (hn : NearNormalised (514 * 6 ^ 3 / 2 ^ 45) 512 den 20 2000 toyCols feature data) :
    ∃ z : ℕ → ℕ → ℝ, (∀ i < 2000, ∀ j < 20, entry data i j = z i j) ∧
      ∀ i < 2000, ∀ j < 20, |z i j - csvScore den i j| ≤ 1 / 10 ^ 8 ∧ |z i j| ≤ 3.33 := by
  refine ⟨fun i j => (entry data i j).re, fun i hi j hj => ?_, fun i hi j hj => ?_⟩ <;>
    obtain ⟨z, hz', hz''⟩ := h.score hF h1 h2 hn hi hj
  · rw [hz']
    simp only [hz', Complex.ofReal_re]
  · have hle := csvScore_le h1 h2 hi hj
    simp only [hz', Complex.ofReal_re]
    refine ⟨hz'', ?_⟩
    rw [abs_le] at *
    norm_num at hz'' hle ⊢
    constructor <;> linarith [hz''.1, hz''.2, hle.1, hle.2]

/-- 1 for the records of class 0 (`price_range` 0), 0 for the others. -/
def csvTarget (i : ℕ) : ℝ := if csvCell (csvRec i) 20 = 0 then 1 else 0

/-- The cubic of Sigmoid. -/
def cubic (x : ℝ) : ℝ := -15 / 10000 * x ^ 3 + 15 / 100 * x + 1 / 2

theorem cubic_ofReal (x : ℝ) : (-15 / 10000 * (x : ℂ) ^ 3 + 15 / 100 * x + 1 / 2) = (cubic x : ℂ) := by
  rw [cubic]; push_cast; ring

/-- One gradient step of length `3/|s|` from zero, over the records `s` of table `z`. -/
def csvStep (s : Finset ℕ) (z : ℕ → ℕ → ℝ) (j : ℕ) : ℝ := 3 / s.card * ∑ d ∈ s, (csvTarget d - 1 / 2) * z d j

/-- A second step of the same length, over the records `s`, from `b`. -/
def csvStep2 (s : Finset ℕ) (z : ℕ → ℕ → ℝ) (b : ℕ → ℝ) (j : ℕ) : ℝ :=
  b j + 3 / s.card * ∑ d ∈ s, (csvTarget d - cubic (∑ k ∈ range 20, z d k * b k)) * z d j

/-- **C77 (lr_toy.go).** lr_toy.go, from reading its own file lr/toyData.csv on, with its own parameters: for
all keys, samples, iteration orders, roundings and encoders `main` does not panic; the table `z` it trains on
is within `10^-8` of the standard scores of the file, none of which exceeds 3.32; the labels are read exactly;
and the result comes from a polynomial at level 9 whose slot 0 holds (up to the computed error) the prediction
for record 1935 after one gradient step over records 0 to 511. -/
theorem C77_toy {parse : String → Option ℂ} {E : Encoder pnCtx (List ℂ)} {prm0 : CPar pnCtx}
    {rnd : MainRand pnCtx} {ε δ : ℝ} (hp : ParsesDecimals prm0.fl parse) (h : PnOk E prm0 rnd 1 100 ε δ)
    {sq : ℝ → ℝ} (hsq : SqrtOk sq) :
    ∃ (z : ℕ → ℕ → ℝ) (data : List (List ℂ)) (label : List ℂ),
      (∀ i < 2000, ∀ j < 20, entry data i j = z i j) ∧
      (∀ i < 2000, ∀ j < 20, |z i j - csvScore 512 i j| ≤ 1 / 10 ^ 8 ∧ |z i j| ≤ 3.33) ∧
      (∀ i < 2000, label.getD i 0 = (csvCell (csvRec i) 20 : ℂ)) ∧
    ∃ out, toyProgram parse E prm0 sq 15 toyCfg rnd toyRows = .ok out ∧
      out.correct = verdict (out.result.getD 0 0).re (csvCell (csvRec 1935) 20 = 0) ∧
      ∃ vr : AVal toyCfg.slotNum, vr.lvl = 9 ∧ Reads E vr out.result ∧
        mainInferVal (mainPar prm0 15 rnd) toyCfg data label (2 * 0x80000000080001) 19
          (freshErr pnCtx (2 ^ 38) 19 ε) = some vr ∧
        vr.x 0 = (cubic (∑ j ∈ range 20, z 1935 j * csvStep (range 512) z j) : ℂ) := by
  obtain ⟨t, e1, ht⟩ := readData_toyRows hp
  have hF := h.fl
  have hd := ht.toyData hF (den := 512) (by norm_num) le_rfl
  obtain ⟨data, hn, out, e2, -, vr, e3, e4, e5, e6, e7⟩ := C54_shipped h hsq hd
  obtain ⟨z, hz, hz'⟩ := ht.table hF (by norm_num) le_rfl hn
  have hl : ∀ i < 2000, target (· = 0) (t.label.getD i 0) = (csvTarget i : ℂ) := by
    intro i hi
    rw [ht.label_eq hF hi, target, Complex.natCast_re, csvTarget]
    simp only [Nat.cast_eq_zero]
    split <;> simp
  refine ⟨z, data, t.label, hz, hz', fun i hi => ht.label_eq hF hi, out, ?_, ?_, vr, e4, e6, e3, ?_⟩
  · show (readData parse 2000 20 toyRows >>= fun t => _) = _
    rw [e1, Go.ok_bind]
    exact e2
  · rw [e7, ht.label_eq hF (by norm_num), Complex.natCast_re]
    simp only [Nat.cast_eq_zero]
  · have hb := (C75_whole_batch (p := toyHyper 512) (by simp [toyHyper, toyEta]) 20 512 (entry data)
      fun i => target (· = 0) (t.label.getD i 0)).2.2.2
    simp only at hb
    have e : (toyHyper 512).gamma / ((toyHyper 512).batchSize : ℂ) = ((3 / (range 512).card : ℝ) : ℂ) := by
      simp [toyHyper]
    have e' : (toyHyper 512).c0 = ((1 / 2 : ℝ) : ℂ) := by simp [toyHyper]
    rw [e5, dot_ofReal (p := z 1935) (q := csvStep (range 512) z) (hz 1935 (by norm_num)) fun j hj => by
      rw [hb j, e, e', csvStep]
      exact step_ofReal _ (fun d hd => hz d ((mem_range.mp hd).trans (by norm_num)))
        (fun d hd => by rw [hl d ((mem_range.mp hd).trans (by norm_num))]; push_cast; rfl) hj, ← cubic_ofReal]
    generalize (∑ j ∈ range 20, z 1935 j * csvStep (range 512) z j) = x
    simp [sigma3, toyHyper]

theorem goInt_natCast (n : ℕ) : goInt (n : ℝ) = n := by
  rw [goInt, if_pos (Nat.cast_nonneg n), Int.floor_natCast]

/-- **C77 (lr_minibatch_toy.go).** The same for lr_minibatch_toy.go: `correct` counts over all 2000 records,
and the prediction for each is that of one step over records 128 to 255 and one over records 256 to 383. -/
theorem C77_mb_toy {parse : String → Option ℂ} {E : Encoder pnCtx (List ℂ)} {prm0 : CPar pnCtx}
    {rnd : MainRand pnCtx} {ε δ : ℝ} (hp : ParsesDecimals prm0.fl parse) (h : PnOk E prm0 rnd 4 100 ε δ)
    {sq : ℝ → ℝ} (hsq : SqrtOk sq) :
    ∃ (z : ℕ → ℕ → ℝ) (data : List (List ℂ)) (label : List ℂ),
      (∀ i < 2000, ∀ j < 20, entry data i j = z i j) ∧
      (∀ i < 2000, ∀ j < 20, |z i j - csvScore 511 i j| ≤ 1 / 10 ^ 8 ∧ |z i j| ≤ 3.33) ∧
      (∀ i < 2000, label.getD i 0 = (csvCell (csvRec i) 20 : ℂ)) ∧
    ∃ out, mbToyProgram parse E prm0 sq 15 mbToyCfg rnd toyRows = .ok out ∧ out.results.length = 2000 ∧
      out.correct = ∑ i ∈ range 2000,
        verdict ((out.results.getD i []).getD 0 0).re (csvCell (csvRec i) 20 = 0) ∧
      ∀ i < 2000, ∃ (vr : AVal mbToyCfg.numSlots) (o : List ℂ), vr.lvl = 5 ∧ out.results[i]? = some o ∧
        Reads E vr o ∧ mbInferVal (mainPar prm0 15 rnd) (mbToyCfg.at i) data label (2 * 0x80000000080001) 19
          (freshErr pnCtx (2 ^ 38) 19 ε) = some vr ∧
        vr.x 0 = (cubic (∑ j ∈ range 20,
          z i j * csvStep2 (Ico 256 384) z (csvStep (Ico 128 256) z) j) : ℂ) := by
  obtain ⟨t, e1, ht⟩ := readData_toyRows hp
  have hF := h.fl
  have hd := ht.toyData hF (den := 511) le_rfl (by norm_num)
  obtain ⟨data, hn, out, e2, -, -, e4, e5, e6⟩ := C55_shipped h hsq hd
  obtain ⟨z, hz, hz'⟩ := ht.table hF le_rfl (by norm_num) hn
  have hl : ∀ i < 2000, target (goInt · = 0) (t.label.getD i 0) = (csvTarget i : ℂ) := by
    intro i hi
    rw [ht.label_eq hF hi, target, Complex.natCast_re, goInt_natCast, csvTarget]
    simp only [Nat.cast_eq_zero]
    split <;> simp
  refine ⟨z, data, t.label, hz, hz', fun i hi => ht.label_eq hF hi, out, ?_, e4, ?_, fun i hi => ?_⟩
  · show (readData parse 2000 20 toyRows >>= fun t => _) = _
    rw [e1, Go.ok_bind]
    exact e2
  · rw [e6]
    refine sum_congr rfl fun i hi => ?_
    rw [ht.label_eq hF (mem_range.mp hi), Complex.natCast_re, goInt_natCast]
    simp only [Nat.cast_eq_zero]
  · obtain ⟨vr, o, g1, g2, g3, g4, g5⟩ := e5 i hi
    refine ⟨vr, o, g2, g4, g5, g1, ?_⟩
    have hlo : ∀ d ∈ Ico 128 256, d < 2000 := fun d hd => (mem_Ico.mp hd).2.trans (by norm_num)
    have hhi : ∀ d ∈ Ico 256 384, d < 2000 := fun d hd => (mem_Ico.mp hd).2.trans (by norm_num)
    have e : (3 / 128 : ℂ) = ((3 / (Ico 128 256).card : ℝ) : ℂ) := by simp
    have e' : (3 / 128 : ℂ) = ((3 / (Ico 256 384).card : ℝ) : ℂ) := by simp
    have hb : ∀ j < 20, 3 / 128 * ∑ d ∈ Ico 128 256,
        (target (goInt · = 0) (t.label.getD d 0) - 1 / 2) * entry data d j =
        (csvStep (Ico 128 256) z j : ℂ) := by
      intro j hj
      rw [e, csvStep]
      exact step_ofReal _ (fun d hd => hz d (hlo d hd))
        (fun d hd => by rw [hl d (hlo d hd)]; push_cast; rfl) hj
    rw [g3, mbToy_run, sigma3_toy, dot_ofReal (p := z i)
      (q := csvStep2 (Ico 256 384) z (csvStep (Ico 128 256) z)) (hz i hi) fun j hj => ?_, cubic_ofReal]
    simp only
    rw [hb j hj, csvStep2, Complex.ofReal_add]
    refine congrArg _ ?_
    rw [e']
    refine step_ofReal _ (fun d hd => hz d (hhi d hd)) (fun d hd => ?_) hj
    rw [hl d (hhi d hd), ← e', dot_ofReal (hz d (hhi d hd)) hb, cubic_ofReal]
    push_cast
    rfl

end MK.Lr
