import Verif.DataCsv
import Verif.Props.FirstStep
import Verif.Props.Utils

/-!
# C79: reading lr/data.csv
-/

noncomputable section

namespace MK.Lr

open Finset
open Utils (readData Fits num C46_readData)

/-- The number a decimal stands for. -/
def decVal (neg : Bool) (n k : ℕ) : ℚ := (if neg then -1 else 1) * ((n : ℚ) / 10 ^ k)

/-- What the programs need of `strconv.ParseFloat`: decimals of up to twenty digits, at most nineteen of them
after the point, are read correctly rounded. -/
def ParsesLong (F : Fl) (parse : String → Option ℂ) : Prop :=
  ∀ neg n k, n < 10 ^ 20 → k ≤ 19 → parse (decText neg n k) = some ((F.rnd (decVal neg n k) : ℚ) : ℂ)

/-- Record `i` of lr/data.csv. -/
def dataRec (i : ℕ) : ℕ := dataCsv.getD i 0

/-- The number in column `j` of record `i`. -/
def dataVal (i j : ℕ) : ℚ := decVal (dataNeg (dataRec i) j) (dataNum (dataRec i) j) (dataDec (dataRec i) j)

set_option maxRecDepth 20000 in
theorem dataCsv_length : dataCsv.length = 10000 := by decide +kernel

/-! ## What the kernel checks of every record -/

/-- The group of feature `j` in a record (`dataGroup`). -/
def fdG (r j : ℕ) : ℕ :=
  Nat.mod (Nat.div r (Nat.pow 10 (Nat.add (Nat.mul 23 (Nat.sub 6 j)) 1))) 100000000000000000000000

/-- `10^19` times the absolute value. -/
def fdM (g : ℕ) : ℕ := Nat.mul (Nat.mod g 100000000000000000000)
  (Nat.pow 10 (Nat.sub 19 (Nat.mod (Nat.div g 100000000000000000000) 100)))

/-- `10^19` times the number in column `j`. -/
def fdZ (r j : ℕ) : ℤ := cond (Nat.beq (Nat.div (fdG r j) 10000000000000000000000) 1)
  (Int.negOfNat (fdM (fdG r j))) (Int.ofNat (fdM (fdG r j)))

/-- At most nineteen decimals, and at most 8 in absolute value. -/
def fdCellOk (r j : ℕ) : Bool := Nat.ble (Nat.mod (Nat.div (fdG r j) 100000000000000000000) 100) 19 &&
  Nat.ble (fdM (fdG r j)) 80000000000000000000

theorem fdG_eq (r j : ℕ) : fdG r j = dataGroup r j := rfl

theorem fdM_eq (r j : ℕ) : fdM (fdG r j) = dataNum r j * 10 ^ (19 - dataDec r j) := rfl

theorem fdCellOk_iff {r j : ℕ} (h : fdCellOk r j = true) :
    dataDec r j ≤ 19 ∧ dataNum r j * 10 ^ (19 - dataDec r j) ≤ 80000000000000000000 := by
  rw [fdCellOk, Bool.and_eq_true] at h
  exact ⟨Nat.le_of_ble_eq_true h.1, Nat.le_of_ble_eq_true h.2⟩

theorem fdZ_eq (r j : ℕ) : fdZ r j = (if dataNeg r j then -1 else 1) *
    ((dataNum r j * 10 ^ (19 - dataDec r j) : ℕ) : ℤ) := by
  have e : Nat.beq (Nat.div (fdG r j) 10000000000000000000000) 1 = dataNeg r j := by
    rw [dataNeg, Bool.eq_iff_iff, beq_iff_eq]
    exact Nat.beq_eq ▸ Iff.rfl
  rw [fdZ, e, fdM_eq]
  generalize dataNum r j * 10 ^ (19 - dataDec r j) = m
  cases dataNeg r j
  · simp
  · simp [Int.negOfNat_eq]

theorem fdZ_val {r j : ℕ} (h : fdCellOk r j = true) :
    decVal (dataNeg r j) (dataNum r j) (dataDec r j) = (fdZ r j : ℚ) / 10 ^ 19 := by
  obtain ⟨hk, -⟩ := fdCellOk_iff h
  rw [fdZ_eq, decVal]
  generalize dataNum r j = n at *
  generalize dataDec r j = k at *
  have e : (10 : ℚ) ^ 19 = 10 ^ (19 - k) * 10 ^ k := by rw [← pow_add, Nat.sub_add_cancel hk]
  rw [e]
  push_cast
  rw [mul_div_assoc]
  congr 1
  field_simp

theorem fdZ_le {r j : ℕ} (h : fdCellOk r j = true) : |fdZ r j| ≤ 8 * 10 ^ 19 := by
  obtain ⟨-, hm⟩ := fdCellOk_iff h
  rw [fdZ_eq]
  generalize dataNum r j * 10 ^ (19 - dataDec r j) = m at *
  have hm' : (m : ℤ) ≤ 8 * 10 ^ 19 := by
    have : m ≤ 8 * 10 ^ 19 := hm
    exact_mod_cast this
  have h0 : (0 : ℤ) ≤ m := by positivity
  split
  · rw [neg_one_mul, abs_neg, abs_of_nonneg h0]; exact hm'
  · rw [one_mul, abs_of_nonneg h0]; exact hm'

/-- The seven cells of a record. -/
def fdRecOk (r : ℕ) : Bool :=
  fdCellOk r 0 && fdCellOk r 1 && fdCellOk r 2 && fdCellOk r 3 && fdCellOk r 4 && fdCellOk r 5 && fdCellOk r 6

theorem fdRecOk_cell {r : ℕ} (h : fdRecOk r = true) {j : ℕ} (hj : j < 7) : fdCellOk r j = true := by
  simp only [fdRecOk, Bool.and_eq_true] at h
  obtain ⟨⟨⟨⟨⟨⟨h0, h1⟩, h2⟩, h3⟩, h4⟩, h5⟩, h6⟩ := h
  match j, hj with
  | 0, _ => exact h0
  | 1, _ => exact h1
  | 2, _ => exact h2
  | 3, _ => exact h3
  | 4, _ => exact h4
  | 5, _ => exact h5
  | 6, _ => exact h6

set_option maxRecDepth 20000

theorem fdBlk0_ok : dataBlk0.all fdRecOk = true := by decide +kernel
theorem fdBlk1_ok : dataBlk1.all fdRecOk = true := by decide +kernel
theorem fdBlk2_ok : dataBlk2.all fdRecOk = true := by decide +kernel
theorem fdBlk3_ok : dataBlk3.all fdRecOk = true := by decide +kernel
theorem fdBlk4_ok : dataBlk4.all fdRecOk = true := by decide +kernel
theorem fdBlk5_ok : dataBlk5.all fdRecOk = true := by decide +kernel
theorem fdBlk6_ok : dataBlk6.all fdRecOk = true := by decide +kernel
theorem fdBlk7_ok : dataBlk7.all fdRecOk = true := by decide +kernel
theorem fdBlk8_ok : dataBlk8.all fdRecOk = true := by decide +kernel
theorem fdBlk9_ok : dataBlk9.all fdRecOk = true := by decide +kernel

theorem fd_ok : dataCsv.all fdRecOk = true := by
  rw [dataCsv]
  simp only [List.all_append, fdBlk0_ok, fdBlk1_ok, fdBlk2_ok, fdBlk3_ok, fdBlk4_ok, fdBlk5_ok, fdBlk6_ok,
    fdBlk7_ok, fdBlk8_ok, fdBlk9_ok, Bool.and_self]

theorem dataRec_mem {i : ℕ} (hi : i < 10000) : dataRec i ∈ dataCsv := by
  rw [dataRec, List.getD_eq_getElem _ _ (by rw [dataCsv_length]; exact hi)]
  exact List.getElem_mem _

theorem all_data {p : ℕ → Bool} (h : dataCsv.all p = true) {i : ℕ} (hi : i < 10000) : p (dataRec i) = true :=
  List.all_eq_true.mp h _ (dataRec_mem hi)

theorem fdCell {i j : ℕ} (hi : i < 10000) (hj : j < 7) : fdCellOk (dataRec i) j = true :=
  fdRecOk_cell (all_data fd_ok hi) hj

theorem dataVal_eq {i j : ℕ} (hi : i < 10000) (hj : j < 7) :
    (dataVal i j : ℝ) = (fdZ (dataRec i) j : ℝ) / 10 ^ 19 := by
  rw [dataVal, fdZ_val (fdCell hi hj)]
  push_cast
  rfl

theorem dataVal_le {i j : ℕ} (hi : i < 10000) (hj : j < 7) : |(dataVal i j : ℝ)| ≤ 8 := by
  have h := fdZ_le (fdCell hi hj)
  have h' : |(fdZ (dataRec i) j : ℝ)| ≤ 8 * 10 ^ 19 := by exact_mod_cast h
  rw [dataVal_eq hi hj, abs_div, abs_of_pos (show (0 : ℝ) < 10 ^ 19 by norm_num), div_le_iff₀ (by norm_num)]
  exact h'

/-! ## Reading -/

/-- What `readData` makes of lr/data.csv. -/
structure DataTable (F : Fl) (feature : List (List ℂ)) (label : List ℂ) : Prop where
  len : feature.length = 10000
  labelLen : label.length = 10000
  rows : ∀ i < 10000, (feature.getD i []).length = 7
  vals : ∀ i < 10000, ∀ j < 7, entry feature i j = ((F.rnd (dataVal i j) : ℚ) : ℂ)
  labels : ∀ i < 10000, label.getD i 0 = ((F.rnd (dataLabel (dataRec i)) : ℚ) : ℂ)

theorem dataNum_lt (r j : ℕ) : dataNum r j < 10 ^ 20 := Nat.mod_lt _ (by norm_num)

theorem dataLabel_lt (r : ℕ) : dataLabel r < 10 := Nat.mod_lt _ (by norm_num)

theorem dataRow_length (r : ℕ) : (dataRow r).length = 8 := by simp [dataRow]

theorem ParsesLong.cell {F : Fl} {parse : String → Option ℂ} (h : ParsesLong F parse) {i j : ℕ} (hi : i < 10000)
    (hj : j < 7) : num parse (dataRow (dataRec i)) j = ((F.rnd (dataVal i j) : ℚ) : ℂ) := by
  rw [Utils.num, dataRow, List.getElem?_append_left (by simpa using hj), List.getElem?_map,
    List.getElem?_range hj, Option.map_some, Option.bind_some,
    h _ _ _ (dataNum_lt _ _) (fdCellOk_iff (fdCell hi hj)).1, Option.getD_some, dataVal]

theorem ParsesLong.label {F : Fl} {parse : String → Option ℂ} (h : ParsesLong F parse) (r : ℕ) :
    num parse (dataRow r) 7 = ((F.rnd (dataLabel r) : ℚ) : ℂ) := by
  have hl := dataLabel_lt r
  have e : (dataRow r)[7]? = some (decText false (dataLabel r) 0) := by
    rw [dataRow, List.getElem?_append_right (by simp)]
    simp
  rw [Utils.num, e, Option.bind_some, h _ _ _ (hl.trans (by norm_num)) (by norm_num), Option.getD_some, decVal]
  simp

theorem readData_dataRows {F : Fl} {parse : String → Option ℂ} (h : ParsesLong F parse) :
    ∃ t, readData parse 10000 7 dataRows = .ok t ∧ DataTable F t.feature t.label := by
  have hlen : dataRows.length = 10001 := by
    rw [dataRows, List.length_cons, List.length_map, dataCsv_length]
  have hrow : ∀ i < 10000, dataRows[i + 1]? = some (dataRow (dataRec i)) := by
    intro i hi
    rw [dataRows, List.getElem?_cons_succ, List.getElem?_map,
      List.getElem?_eq_getElem (by rw [dataCsv_length]; exact hi), Option.map_some, dataRec,
      List.getD_eq_getElem _ _ (by rw [dataCsv_length]; exact hi)]
  obtain ⟨t, h1, h2, h3, h4, -⟩ := C46_readData (parse := parse) (numData := 10000) (numFeature := 7)
    (rows := dataRows) ⟨by rw [hlen], by
      intro row hr
      rw [dataRows, List.drop_one, List.tail_cons, List.mem_map] at hr
      obtain ⟨r, hr, rfl⟩ := hr
      have hok := List.all_eq_true.mp fd_ok r hr
      refine ⟨by rw [dataRow_length], fun cell hc => ?_⟩
      rw [dataRow, List.mem_append, List.mem_map, List.mem_singleton] at hc
      rcases hc with ⟨j, hj, rfl⟩ | rfl
      · rw [h _ _ _ (dataNum_lt _ _) (fdCellOk_iff (fdRecOk_cell hok (List.mem_range.mp hj))).1]; rfl
      · rw [h _ _ _ ((dataLabel_lt r).trans (by norm_num)) (by norm_num)]; rfl⟩
  have hr : ∀ i (hi : i < 10000), dataRows[i + 1]'(by rw [hlen]; omega) = dataRow (dataRec i) := by
    intro i hi
    have := hrow i hi
    rw [List.getElem?_eq_getElem (by rw [hlen]; omega)] at this
    exact Option.some.inj this
  refine ⟨t, h1, h2, h3, fun i hi => ?_, fun i hi j hj => ?_, fun i hi => ?_⟩
  · obtain ⟨⟨fr, e1, e2, -⟩, -⟩ := h4 i (by rw [hlen]; omega)
    rw [List.getD_eq_getElem?_getD, e1, Option.getD_some, e2]
  · obtain ⟨⟨fr, e1, -, e3⟩, -⟩ := h4 i (by rw [hlen]; omega)
    have := e3 j hj
    rw [hr i hi, if_pos (by rw [dataRow_length]; omega), h.cell hi hj] at this
    rw [entry, List.getD_eq_getElem?_getD (l := t.feature), e1, Option.getD_some,
      List.getD_eq_getElem?_getD, this, Option.getD_some]
  · obtain ⟨-, e⟩ := h4 i (by rw [hlen]; omega)
    rw [hr i hi, dataRow_length, h.label] at e
    rw [List.getD_eq_getElem?_getD, e, Option.getD_some]

variable {F : Fl} {feature : List (List ℂ)} {label : List ℂ}

theorem DataTable.outside (h : DataTable F feature label) {i j : ℕ} (hij : ¬(i < 10000 ∧ j < 7)) :
    entry feature i j = 0 := by
  rw [entry]
  by_cases hi : i < 10000
  · rw [List.getD_eq_default _ _ (by rw [h.rows i hi]; omega)]
  · rw [List.getD_eq_default feature _ (by rw [h.len]; omega), List.getD_nil]

/-- All entries are reals. -/
theorem DataTable.re (h : DataTable F feature label) (i j : ℕ) :
    entry feature i j = ((entry feature i j).re : ℂ) := by
  by_cases hij : i < 10000 ∧ j < 7
  · rw [h.vals i hij.1 j hij.2]
    rw [← Complex.ofReal_ratCast, Complex.ofReal_re]
  · rw [h.outside hij]; simp

/-- Parsing moves an entry by at most `10^-15`. -/
theorem DataTable.near (h : DataTable F feature label) (hF : F.Ok) {i j : ℕ} (hi : i < 10000) (hj : j < 7) :
    |(entry feature i j).re - dataVal i j| ≤ 1 / 10 ^ 15 := by
  rw [h.vals i hi j hj, ← Complex.ofReal_ratCast, Complex.ofReal_re]
  have h1 : |((F.rnd (dataVal i j) : ℚ) : ℝ) - (dataVal i j : ℝ)| ≤ |(dataVal i j : ℝ)| / 2 ^ 53 := by
    have := hF.rel (dataVal i j)
    exact_mod_cast this
  have h2 := dataVal_le hi hj
  refine h1.trans ?_
  rw [div_le_div_iff₀ (by norm_num) (by norm_num)]
  norm_num at h2 ⊢
  linarith

theorem DataTable.le (h : DataTable F feature label) (hF : F.Ok) : ∀ row ∈ feature, ∀ x ∈ row, ‖x‖ ≤ 100 := by
  intro row hrow x hx
  obtain ⟨i, hi, rfl⟩ := List.getElem_of_mem hrow
  have hi' : i < 10000 := by rw [← h.len]; exact hi
  have hl := h.rows i hi'
  rw [List.getD_eq_getElem _ _ hi] at hl
  obtain ⟨j, hj, rfl⟩ := List.getElem_of_mem hx
  have hj' : j < 7 := by rw [← hl]; exact hj
  have e : feature[i][j] = entry feature i j := by
    rw [entry, List.getD_eq_getElem _ _ hi, List.getD_eq_getElem _ _ hj]
  rw [e, h.re, Complex.norm_real, Real.norm_eq_abs]
  have a := abs_le.mp (h.near hF hi' hj')
  have b := abs_le.mp (dataVal_le hi' hj')
  rw [abs_le]
  norm_num at a b ⊢
  constructor <;> linarith [a.1, a.2, b.1, b.2]

theorem DataTable.label_eq (h : DataTable F feature label) (hF : F.Ok) {i : ℕ} (hi : i < 10000) :
    label.getD i 0 = (dataLabel (dataRec i) : ℂ) := by
  have e : F.rnd (dataLabel (dataRec i)) = dataLabel (dataRec i) := by
    have hlt := dataLabel_lt (dataRec i)
    generalize dataLabel (dataRec i) = n at *
    have := hF.int n (by rw [abs_of_nonneg (by positivity)]; norm_num; omega)
    exact_mod_cast this
  rw [h.labels i hi, e, Rat.cast_natCast]

end MK.Lr
