import Verif.Props.ExToyCsv
import Verif.Props.DataCsvRun

/-! # Concrete cases for C79 -/

noncomputable section

namespace MK.Lr

open Finset
open Utils (readData)

/-- The value of an unsigned decimal: the digits before and after the point. -/
def unsignedVal (l : List Char) : ℚ :=
  let a := l.takeWhile (· ≠ '.')
  let b := (l.dropWhile (· ≠ '.')).drop 1
  (Nat.ofDigitChars 10 (a ++ b) 0 : ℕ) / 10 ^ b.length

/-- A parser of signed decimals, rounded. -/
def exParseLong (F : Fl) (s : String) : Option ℂ :=
  some ((F.rnd (if s.toList.head? = some '-' then -unsignedVal s.toList.tail else unsignedVal s.toList) : ℚ) : ℂ)

theorem padDigits_length (k n : ℕ) : (padDigits k n).length = k := by
  induction k generalizing n with
  | zero => rfl
  | succ k ih => simp [padDigits, ih]

theorem padDigits_val (k n a : ℕ) : Nat.ofDigitChars 10 (padDigits k n) a = a * 10 ^ k + n % 10 ^ k := by
  induction k generalizing n with
  | zero => simp [padDigits, Nat.mod_one]
  | succ k ih =>
    rw [padDigits, Nat.ofDigitChars_append, ih,
      Nat.ofDigitChars_cons_digitChar_of_lt_ten (Nat.mod_lt _ (by norm_num)), Nat.ofDigitChars_nil, pow_succ',
      Nat.mod_mul]
    ring

/-- The characters of a decimal without its sign. -/
def decChars (n k : ℕ) : List Char := Nat.toDigits 10 (n / 10 ^ k) ++ if k = 0 then [] else '.' :: padDigits k n

theorem decText_toList (neg : Bool) (n k : ℕ) :
    (decText neg n k).toList = (if neg then ['-'] else []) ++ decChars n k := by
  unfold decText decChars
  rw [String.toList_append, String.toList_append, Nat.toString_eq_repr, Nat.toList_repr, List.append_assoc]
  cases neg <;> by_cases hk : k = 0 <;> simp [hk]

theorem unsignedVal_decChars (n k : ℕ) : unsignedVal (decChars n k) = (n : ℚ) / 10 ^ k := by
  unfold unsignedVal decChars
  simp only [List.takeWhile_append_of_pos (digits_no_dot _), List.dropWhile_append_of_pos (digits_no_dot _)]
  by_cases hk : k = 0
  · subst hk
    simp
  · simp only [hk, if_false, List.takeWhile_cons, List.dropWhile_cons, ne_eq, not_true_eq_false, decide_false,
      Bool.false_eq_true, List.append_nil, List.drop_one, List.tail_cons]
    rw [Nat.ofDigitChars_append, Nat.ofDigitChars_ten_toDigits, padDigits_val, padDigits_length,
      Nat.div_add_mod']

theorem decChars_head (n k : ℕ) : (decChars n k).head? ≠ some '-' := by
  unfold decChars
  intro h
  cases e : Nat.toDigits 10 (n / 10 ^ k) with
  | nil => exact absurd e Nat.toDigits_ne_nil
  | cons c l =>
    rw [e, List.cons_append, List.head?_cons, Option.some.injEq] at h
    have := Nat.isDigit_of_mem_toDigits (b := 10) (n := n / 10 ^ k) (c := c) (by norm_num) le_rfl (by rw [e]; simp)
    rw [h] at this
    exact absurd this (by decide)

theorem exParseLong_ok (F : Fl) : ParsesLong F (exParseLong F) := fun neg n k _ _ => by
  unfold exParseLong decVal
  rw [decText_toList]
  cases neg
  · simp [decChars_head, unsignedVal_decChars]
  · simp [unsignedVal_decChars]

/-- A number with leading zeros after the point. -/
example : decText true 12345 7 = "-0.0012345" ∧ decVal true 12345 7 = -0.0012345 := by
  refine ⟨by decide +kernel, by norm_num [decVal]⟩

/-- The file is read; record 1935 starts with a number near -0.952 and is of class 0. -/
example : ∃ t, readData (exParseLong exPar.fl) 10000 7 dataRows = .ok t ∧ t.feature.length = 10000 ∧
    |(entry t.feature 1935 0).re - dataVal 1935 0| ≤ 1 / 10 ^ 15 ∧ t.label.getD 1935 0 = 0 := by
  obtain ⟨t, e, h⟩ := readData_dataRows (exParseLong_ok exPar.fl)
  have hF := (exPnOk 3).fl
  exact ⟨t, e, h.len, h.near hF (by norm_num) (by norm_num), by
    rw [h.label_eq hF (by norm_num), lr_test.2, Nat.cast_zero]⟩

/-- lr.go on its file, with keys from `exRand`. -/
example : ∃ out, lrProgram (exParseLong exPar.fl) (stdEncoder pnCtx) exPar 15 lrCfg exRand dataRows = .ok out ∧
    ∃ p : ℝ, 0.5556 < p ∧ (out.correct = 1 ∨ 0.0556 < |(out.result.getD 0 0).re - p|) := by
  obtain ⟨out, h1, -, z, data, label, -, -, -, vr, p, -, -, -, -, h2, h3⟩ :=
    C79_lr (exParseLong_ok exPar.fl) (exPnOk 3)
  refine ⟨out, h1, p, ?_, h3⟩
  rw [abs_le] at h2
  norm_num at h2 ⊢
  linarith [h2.1]

/-- lr_minibatch.go on its file. -/
example : ∃ out, mbProgram (exParseLong exPar.fl) (stdEncoder pnCtx) exPar 15 mbCfg exRand dataRows = .ok out ∧
    ∃ p : ℝ, 0.6288 < p ∧ (out.correct = 1 ∨ 0.1288 < |(out.result.getD 0 0).re - p|) := by
  obtain ⟨out, h1, -, z, data, label, -, -, -, vr, p, -, -, -, -, h2, h3⟩ :=
    C79_mb (exParseLong_ok exPar.fl) (exPnOk 4)
  refine ⟨out, h1, p, ?_, h3⟩
  rw [abs_le] at h2
  norm_num at h2 ⊢
  linarith [h2.1]

/-- Always answering "class 0" is right for 4549 records more than the model of lr.go. -/
example : ((range 10000).filter fun i => dataLabel (dataRec i) = 0).card =
    ∑ i ∈ range 10000, verdict (lrPredict dataReal i) (dataLabel (dataRec i) = 0) + 4549 := by
  rw [C79_plain.2.2.2.2.1, C79_plain.2.2.2.2.2.2]

end MK.Lr
