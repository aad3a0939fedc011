import Verif.Props.ExToy
import Verif.Props.ToyCsvResult

/-! # Concrete cases for C77 and C78 -/

noncomputable section

namespace MK.Lr

open Finset
open Utils (readData)

/-- A parser of decimals: the digits before and after the point, rounded. -/
def exParse (F : Fl) (s : String) : Option ℂ :=
  let a := s.toList.takeWhile (· ≠ '.')
  let b := (s.toList.dropWhile (· ≠ '.')).drop 1
  some ((F.rnd ((Nat.ofDigitChars 10 (a ++ b) 0 : ℕ) / 10 ^ b.length) : ℚ) : ℂ)

theorem digits_no_dot (n : ℕ) : ∀ c ∈ Nat.toDigits 10 n, (decide (c ≠ '.')) = true := by
  intro c hc
  have := Nat.isDigit_of_mem_toDigits (by norm_num) le_rfl hc
  rw [decide_eq_true_iff]
  rintro rfl
  exact absurd this (by decide)

theorem exParse_ok (F : Fl) : ParsesDecimals F (exParse F) where
  int n _ := by
    have e : (toString n).toList = Nat.toDigits 10 n := by rw [Nat.toString_eq_repr, Nat.toList_repr]
    unfold exParse
    have h1 := List.takeWhile_append_of_pos (l₂ := []) (digits_no_dot n)
    have h2 := List.dropWhile_append_of_pos (l₂ := []) (digits_no_dot n)
    rw [List.append_nil] at h1 h2
    rw [e, h1, h2]
    simp
  dec n _ := by
    have e : (toString (n / 10) ++ "." ++ toString (n % 10)).toList =
        Nat.toDigits 10 (n / 10) ++ '.' :: Nat.toDigits 10 (n % 10) := by
      rw [String.toList_append, String.toList_append, Nat.toString_eq_repr, Nat.toString_eq_repr,
        Nat.toList_repr, Nat.toList_repr]
      simp
    unfold exParse
    rw [e, List.takeWhile_append_of_pos (digits_no_dot _), List.dropWhile_append_of_pos (digits_no_dot _)]
    have hl : Nat.toDigits 10 (n % 10) = [(n % 10).digitChar] :=
      Nat.toDigits_of_lt_base (Nat.mod_lt _ (by norm_num))
    have hv : Nat.ofDigitChars 10 (Nat.toDigits 10 (n / 10) ++ Nat.toDigits 10 (n % 10)) 0 = n := by
      rw [Nat.ofDigitChars_append, Nat.ofDigitChars_ten_toDigits, hl,
        Nat.ofDigitChars_cons_digitChar_of_lt_ten (Nat.mod_lt _ (by norm_num)), Nat.ofDigitChars_nil]
      omega
    simp only [List.takeWhile_cons, List.dropWhile_cons, ne_eq, not_true_eq_false, decide_false,
      Bool.false_eq_true, if_false, List.append_nil, List.drop_one, List.tail_cons]
    rw [hv, hl]
    simp

/-- The file is read: record 7 has battery_power 1954, clock_speed 0.5, price_range 0. -/
example : ∃ t, readData (exParse exPar.fl) 2000 20 toyRows = .ok t ∧ t.feature.length = 2000 ∧
    entry t.feature 7 0 = (csvCell (csvRec 7) 0 : ℂ) ∧ t.label.getD 7 0 = (csvCell (csvRec 7) 20 : ℂ) ∧
    csvCell (csvRec 7) 0 = 1954 ∧ csvCell (csvRec 7) 2 = 5 ∧ csvCell (csvRec 7) 20 = 0 := by
  obtain ⟨t, e, h⟩ := readData_toyRows (exParse_ok exPar.fl)
  have hF := (exPnOk 1).fl
  exact ⟨t, e, h.len, h.int hF (by norm_num) (by norm_num) (by norm_num) (by norm_num),
    h.label_eq hF (by norm_num), by decide, by decide, by decide⟩

/-- lr_toy.go on its file, with keys from `exRand`. -/
example : ∃ out, toyProgram (exParse exPar.fl) (stdEncoder pnCtx) exPar sqrt53 15 toyCfg exRand toyRows =
    .ok out ∧ out.result.length = 2 ^ 14 := by
  obtain ⟨z, data, label, -, -, -, out, h1, -, vr, -, ⟨m, -, h3⟩, -⟩ :=
    C77_toy (exParse_ok exPar.fl) (exPnOk 1) sqrt53_ok
  exact ⟨out, h1, by rw [h3, (exPnOk 1).encoder.len]⟩

/-- lr_minibatch_toy.go on its file. -/
example : ∃ out, mbToyProgram (exParse exPar.fl) (stdEncoder pnCtx) exPar sqrt53 15 mbToyCfg exRand toyRows =
    .ok out ∧ out.results.length = 2000 := by
  obtain ⟨z, data, label, -, -, -, out, h1, h2, -⟩ :=
    C77_mb_toy (exParse_ok exPar.fl) (exPnOk 4) sqrt53_ok
  exact ⟨out, h1, h2⟩

/-- The prediction of lr_toy.go is below the threshold. -/
example : toyPredict < 0.36 := by
  have h := abs_le.mp C78_plain.1
  norm_num at h ⊢
  linarith [h.2]

/-- 87.8 per cent. -/
example : (∑ i ∈ range 2000, verdict (mbToyPredict i) (csvCell (csvRec i) 20 = 0) : ℚ) / 2000 = 0.878 := by
  have h : (((∑ i ∈ range 2000, verdict (mbToyPredict i) (csvCell (csvRec i) 20 = 0) : ℕ)) : ℚ) = 1756 := by
    rw [C78_plain.2.2.2.1]; rfl
  push_cast at h
  rw [h]
  norm_num

example : ∃ out, toyProgram (exParse exPar.fl) (stdEncoder pnCtx) exPar sqrt53 15 toyCfg exRand toyRows =
    .ok out ∧ ∃ p : ℝ, p < 0.36 ∧ (out.correct = 1 ∨ 0.149 < |(out.result.getD 0 0).re - p|) := by
  obtain ⟨out, h1, p, data, label, vr, -, -, -, h2, h3⟩ := C78_toy (exParse_ok exPar.fl) (exPnOk 1) sqrt53_ok
  refine ⟨out, h1, p, ?_, h3⟩
  rw [abs_le] at h2
  norm_num at h2 ⊢
  linarith [h2.2]

/-- If no more than 56 records have much noise, at least 1700 are classified correctly. -/
example : ∃ out, mbToyProgram (exParse exPar.fl) (stdEncoder pnCtx) exPar sqrt53 15 mbToyCfg exRand toyRows =
    .ok out ∧ ∃ p : ℕ → ℝ, ((range 2000).filter fun i =>
      4 / 10 ^ 4 ≤ |((out.results.getD i []).getD 0 0).re - p i|).card ≤ 56 → 1700 ≤ out.correct := by
  obtain ⟨out, h1, p, data, label, -, h2⟩ := C78_mb_toy (exParse_ok exPar.fl) (exPnOk 4) sqrt53_ok
  refine ⟨out, h1, p, fun h => ?_⟩
  have h3 := (abs_le.mp h2).1
  omega

end MK.Lr
