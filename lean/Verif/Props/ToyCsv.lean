import Verif.ToyCsv
import Verif.Props.FirstStep
import Verif.Props.Utils
import Mathlib.Analysis.InnerProductSpace.PiL2

/-!
# C77: the toy programs on the data they are shipped with
-/

noncomputable section

namespace MK.Lr

open Finset
open Utils (readData Fits num C46_readData)

/-- The number written in column `j` of a record of lr/toyData.csv. -/
def csvVal (r j : ℕ) : ℚ := if j = 2 ∨ j = 7 then (csvCell r j : ℚ) / 10 else csvCell r j

/-- Record `i` of lr/toyData.csv. -/
def csvRec (i : ℕ) : ℕ := toyCsv.getD i 0

/-- What the programs need of `strconv.ParseFloat`: numbers of up to four digits, without or with one
decimal, are read correctly rounded. -/
structure ParsesDecimals (F : Fl) (parse : String → Option ℂ) : Prop where
  int : ∀ n : ℕ, n < 10000 → parse (toString n) = some ((F.rnd n : ℚ) : ℂ)
  dec : ∀ n : ℕ, n < 10000 → parse (toString (n / 10) ++ "." ++ toString (n % 10)) =
    some ((F.rnd ((n : ℚ) / 10) : ℚ) : ℂ)

theorem csvCell_lt (r j : ℕ) : csvCell r j < 10000 := Nat.mod_lt _ (by norm_num)

theorem ParsesDecimals.cell {F : Fl} {parse : String → Option ℂ} (h : ParsesDecimals F parse) (r j : ℕ) :
    parse (cellText r j) = some ((F.rnd (csvVal r j) : ℚ) : ℂ) := by
  have hlt := csvCell_lt r j
  unfold cellText csvVal
  generalize csvCell r j = n at *
  split
  · exact h.dec n hlt
  · exact h.int n hlt

theorem toyCsv_length : toyCsv.length = 2000 := by decide +kernel

/-- What `readData` makes of lr/toyData.csv. -/
structure CsvTable (F : Fl) (feature : List (List ℂ)) (label : List ℂ) : Prop where
  len : feature.length = 2000
  labelLen : label.length = 2000
  rows : ∀ i < 2000, (feature.getD i []).length = 20
  vals : ∀ i < 2000, ∀ j < 20, entry feature i j = ((F.rnd (csvVal (csvRec i) j) : ℚ) : ℂ)
  labels : ∀ i < 2000, label.getD i 0 = ((F.rnd (csvVal (csvRec i) 20) : ℚ) : ℂ)

theorem readData_toyRows {F : Fl} {parse : String → Option ℂ} (h : ParsesDecimals F parse) :
    ∃ t, readData parse 2000 20 toyRows = .ok t ∧ CsvTable F t.feature t.label := by
  have hlen : toyRows.length = 2001 := by
    rw [toyRows, List.length_cons, List.length_map, toyCsv_length]
  have hrow : ∀ i < 2000, toyRows[i + 1]? = some ((List.range 21).map (cellText (csvRec i))) := by
    intro i hi
    rw [toyRows, List.getElem?_cons_succ, List.getElem?_map,
      List.getElem?_eq_getElem (by rw [toyCsv_length]; exact hi), Option.map_some, csvRec,
      List.getD_eq_getElem _ _ (by rw [toyCsv_length]; exact hi)]
  obtain ⟨t, h1, h2, h3, h4, -⟩ := C46_readData (parse := parse) (numData := 2000) (numFeature := 20)
    (rows := toyRows) ⟨by rw [hlen], by
      intro row hr
      rw [toyRows, List.drop_one, List.tail_cons, List.mem_map] at hr
      obtain ⟨r, -, rfl⟩ := hr
      refine ⟨by simp, fun cell hc => ?_⟩
      rw [List.mem_map] at hc
      obtain ⟨j, -, rfl⟩ := hc
      rw [h.cell]; rfl⟩
  have hr : ∀ i (hi : i < 2000), toyRows[i + 1]'(by rw [hlen]; omega) =
      (List.range 21).map (cellText (csvRec i)) := by
    intro i hi
    have := hrow i hi
    rw [List.getElem?_eq_getElem (by rw [hlen]; omega)] at this
    exact Option.some.inj this
  have hn : ∀ i j, j < 21 → num parse ((List.range 21).map (cellText (csvRec i))) j =
      ((F.rnd (csvVal (csvRec i) j) : ℚ) : ℂ) := by
    intro i j hj
    rw [num, List.getElem?_map, List.getElem?_range hj, Option.map_some, Option.bind_some, h.cell,
      Option.getD_some]
  refine ⟨t, h1, h2, h3, fun i hi => ?_, fun i hi j hj => ?_, fun i hi => ?_⟩
  · obtain ⟨⟨fr, e1, e2, -⟩, -⟩ := h4 i (by rw [hlen]; omega)
    rw [List.getD_eq_getElem?_getD, e1, Option.getD_some, e2]
  · obtain ⟨⟨fr, e1, -, e3⟩, -⟩ := h4 i (by rw [hlen]; omega)
    have := e3 j hj
    rw [hr i hi, if_pos (by rw [List.length_map, List.length_range]; omega), hn i j (by omega)] at this
    rw [entry, List.getD_eq_getElem?_getD (l := t.feature), e1, Option.getD_some,
      List.getD_eq_getElem?_getD, this, Option.getD_some]
  · obtain ⟨-, e⟩ := h4 i (by rw [hlen]; omega)
    rw [hr i hi, List.length_map, List.length_range, hn i 20 (by norm_num)] at e
    rw [List.getD_eq_getElem?_getD, e, Option.getD_some]

/-! ## Sums and bounds over the records -/

theorem sum_getD (f : ℕ → ℕ) (l : List ℕ) (n : ℕ) (hn : n ≤ l.length) :
    ∑ i ∈ range n, f (l.getD i 0) = ((l.take n).map f).sum := by
  induction n generalizing l with
  | zero => simp
  | succ n ih =>
    match l with
    | [] => simp at hn
    | a :: l =>
      rw [sum_range_succ', List.take_succ_cons, List.map_cons, List.sum_cons, add_comm]
      simp only [List.getD_cons_succ, List.getD_cons_zero]
      rw [ih l (by simpa using hn)]

theorem all_csv {p : ℕ → Bool} (h : toyCsv.all p = true) {i : ℕ} (hi : i < 2000) : p (csvRec i) = true := by
  rw [csvRec, List.getD_eq_getElem _ _ (by rw [toyCsv_length]; exact hi)]
  exact List.all_eq_true.mp h _ (List.getElem_mem _)

/-- The sums of the columns over the first 512 records. -/
def csvS1 : List ℕ :=
  [645344, 247, 8059, 267, 2269, 271, 17228, 2642, 73123, 2312, 5169, 332939, 636266, 1122510, 6380,
   2992, 5655, 390, 269, 264]

/-- 512 times the sum of the squares minus the square of the sum. -/
def csvD : List ℕ :=
  [49751803904, 65455, 17161447, 65415, 5488439, 65311, 86876528, 2076092, 329898039, 1339328,
   9908383, 50080310919, 46254005276, 313151896124, 4722288, 5394176, 7392239, 47580, 65367, 65472]

theorem csvS1_eq : (List.range 20).map (fun j => ((toyCsv.take 512).map (csvCell · j)).sum) = csvS1 := by
  decide +kernel

theorem csvD_eq : (List.range 20).map (fun j => 512 * ((toyCsv.take 512).map (csvCell · j ^ 2)).sum) =
    (List.range 20).map fun j => csvD.getD j 0 + csvS1.getD j 0 ^ 2 := by
  decide +kernel

/-- The bounds for one record that the kernel checks. -/
def csvCheck (r : ℕ) : Bool := (List.range 20).all fun j =>
  if toyCols j then decide (csvCell r j ^ 2 * 512 ^ 2 ≤ 32 * csvD.getD j 0) &&
    decide (((512 * csvCell r j : ℕ) - csvS1.getD j 0 : ℤ) ^ 2 ≤ 11 * csvD.getD j 0)
  else decide (csvCell r j ≤ 1)

theorem csv_checks : toyCsv.all csvCheck = true := by decide +kernel

theorem csvD_ge : (List.range 20).all (fun j => !toyCols j ||
    decide ((if j = 2 ∨ j = 7 then 100 else 1) * 512 ^ 2 ≤ 16 * csvD.getD j 0)) = true := by
  decide +kernel

end MK.Lr
