import Verif.Props.ToyCsvPlain

/-!
# C78: what the toy programs compute from lr/toyData.csv
-/

noncomputable section

namespace MK.Lr

open Finset

/-- The prediction for record 1935 of the model that one gradient step on the exact standard scores of the
records 0 to 511 gives. -/
def toyPredict : ℝ := cubic (∑ j ∈ range 20, csvScore 512 1935 j * csvStep (range 512) (csvScore 512) j)

/-- The prediction for record `i` after a step on the exact standard scores of the records 128 to 255 and one
on those of 256 to 383. -/
def mbToyPredict (i : ℕ) : ℝ := cubic (∑ j ∈ range 20,
  csvScore 511 i j * csvStep2 (Ico 256 384) (csvScore 511) (csvStep (Ico 128 256) (csvScore 511)) j)

theorem score_self {den : ℝ} (h1 : 511 ≤ den) (h2 : den ≤ 512) : ∀ i < 2000, ∀ j < 20,
    |csvScore den i j - csvScore den i j| ≤ 1 / 10 ^ 8 ∧ |csvScore den i j| ≤ 3.33 := fun i hi j hj => by
  refine ⟨by rw [sub_self, abs_zero]; norm_num, (csvScore_le h1 h2 hi hj).trans ?_⟩
  norm_num

theorem verdict_congr {p q : ℝ} (P : Prop) (h : 1 / 2 ≤ p ↔ 1 / 2 ≤ q) : verdict p P = verdict q P := by
  classical
  unfold verdict
  exact if_congr (iff_congr h Iff.rfl) rfl rfl

theorem verdict_le (p : ℝ) (P : Prop) : verdict p P ≤ 1 := by
  unfold verdict
  split <;> simp

/-- Predictions on the same side of the threshold as the table are right for 1756 records. -/
theorem count_eq {p : ℕ → ℝ} (h : ∀ i < 2000, (1 / 2 ≤ p i ↔ 0 ≤ fxDot fxW511 fxB2 (csvRec i))) :
    ∑ i ∈ range 2000, verdict (p i) (csvCell (csvRec i) 20 = 0) = 1756 := by
  have e := sum_csv (a := 0) (n := 2000)
    (fun r => if (0 ≤ fxDot fxW511 fxB2 r ↔ csvCell r 20 = 0) then 1 else 0) (by norm_num)
  rw [List.drop_zero, List.take_of_length_le (by rw [toyCsv_length]), fx_count, zero_add,
    Nat.Ico_zero_eq_range] at e
  rw [← e]
  refine sum_congr rfl fun i hi => ?_
  unfold verdict
  simp only [h i (mem_range.mp hi)]

theorem csv_classes : (toyCsv.map fun r => if csvCell r 20 = 0 then 1 else 0).sum = 500 := by decide +kernel

/-- **C78 (the plain models).** On lr/toyData.csv: the model of lr_toy.go predicts 0.35082 (to five decimals) for
record 1935, which is not of class 0; the model of lr_minibatch_toy.go is right for 1756 of the 2000
records (500 of the 2000 are of class 0), and none of its predictions is within `4 * 10^-4` of the threshold. -/
theorem C78_plain : |toyPredict - 0.350819| ≤ 1 / 10 ^ 5 ∧ csvCell (csvRec 1935) 20 ≠ 0 ∧
    (∀ i < 2000, 4 / 10 ^ 4 < |mbToyPredict i - 1 / 2|) ∧
    ∑ i ∈ range 2000, verdict (mbToyPredict i) (csvCell (csvRec i) 20 = 0) = 1756 ∧
    ((range 2000).filter fun i => csvCell (csvRec i) 20 = 0).card = 500 :=
  ⟨toy_plain (score_self (by norm_num) le_rfl), fx_toy.2,
    fun i hi => (mb_plain (score_self le_rfl (by norm_num)) hi).1,
    count_eq fun i hi => (mb_plain (score_self le_rfl (by norm_num)) hi).2, by
    have e := sum_csv (a := 0) (n := 2000) (fun r => if csvCell r 20 = 0 then 1 else 0) (by norm_num)
    rw [List.drop_zero, List.take_of_length_le (by rw [toyCsv_length]), csv_classes, zero_add,
      Nat.Ico_zero_eq_range] at e
    rw [card_filter]
    exact e⟩

/-- **C78 (lr_toy.go).** Whatever the keys, samples, iteration orders, roundings and encoder are: lr_toy.go on
its file counts its one prediction as correct, unless the noise in the decrypted slot exceeds 0.149; slot 0
of the polynomial the result is decoded from holds (up to the computed error) a number within `10^-5` of 0.350819. -/
theorem C78_toy {parse : String → Option ℂ} {E : Encoder pnCtx (List ℂ)} {prm0 : CPar pnCtx}
    {rnd : MainRand pnCtx} {ε δ : ℝ} (hp : ParsesDecimals prm0.fl parse) (h : PnOk E prm0 rnd 1 100 ε δ)
    {sq : ℝ → ℝ} (hsq : SqrtOk sq) :
    ∃ out, toyProgram parse E prm0 sq 15 toyCfg rnd toyRows = .ok out ∧
      ∃ (p : ℝ) (data : List (List ℂ)) (label : List ℂ) (vr : AVal toyCfg.slotNum),
        mainInferVal (mainPar prm0 15 rnd) toyCfg data label (2 * 0x80000000080001) 19
          (freshErr pnCtx (2 ^ 38) 19 ε) = some vr ∧ Reads E vr out.result ∧ vr.x 0 = p ∧
        |p - 0.350819| ≤ 1 / 10 ^ 5 ∧ (out.correct = 1 ∨ 0.149 < |(out.result.getD 0 0).re - p|) := by
  obtain ⟨z, data, label, -, hz, -, out, h1, h2, vr, -, h3, h4, h5⟩ := C77_toy hp h hsq
  have hp := toy_plain hz
  refine ⟨out, h1, _, data, label, vr, h4, h3, h5, hp, ?_⟩
  generalize cubic (∑ j ∈ range 20, z 1935 j * csvStep (range 512) z j) = p at *
  rcases lt_or_ge (out.result.getD 0 0).re (1 / 2) with hlt | hge
  · left
    rw [h2, verdict, if_pos ⟨fun hh => absurd hh (by linarith), fun hh => absurd hh fx_toy.2⟩]
  · right
    refine lt_of_lt_of_le ?_ (le_abs_self _)
    rw [abs_le] at hp
    generalize (out.result.getD 0 0).re = r at *
    norm_num at hp ⊢
    linarith [hp.1, hp.2]

/-- **C78 (lr_minibatch_toy.go).** Whatever the keys, samples, iteration orders, roundings and encoder are:
`correct` differs from 1756 at most by the number of records whose noise is `4 * 10^-4` or more. -/
theorem C78_mb_toy {parse : String → Option ℂ} {E : Encoder pnCtx (List ℂ)} {prm0 : CPar pnCtx}
    {rnd : MainRand pnCtx} {ε δ : ℝ} (hp : ParsesDecimals prm0.fl parse) (h : PnOk E prm0 rnd 4 100 ε δ)
    {sq : ℝ → ℝ} (hsq : SqrtOk sq) :
    ∃ out, mbToyProgram parse E prm0 sq 15 mbToyCfg rnd toyRows = .ok out ∧
      ∃ (p : ℕ → ℝ) (data : List (List ℂ)) (label : List ℂ),
        (∀ i < 2000, ∃ (vr : AVal mbToyCfg.numSlots) (o : List ℂ), out.results[i]? = some o ∧ Reads E vr o ∧
          mbInferVal (mainPar prm0 15 rnd) (mbToyCfg.at i) data label (2 * 0x80000000080001) 19
            (freshErr pnCtx (2 ^ 38) 19 ε) = some vr ∧ vr.x 0 = p i ∧ 4 / 10 ^ 4 < |p i - 1 / 2|) ∧
        |(out.correct : ℤ) - 1756| ≤ ((range 2000).filter fun i =>
          4 / 10 ^ 4 ≤ |((out.results.getD i []).getD 0 0).re - p i|).card := by
  obtain ⟨z, data, label, -, hz, -, out, h1, -, h2, h3⟩ := C77_mb_toy hp h hsq
  refine ⟨out, h1, fun i => cubic (∑ j ∈ range 20,
    z i j * csvStep2 (Ico 256 384) z (csvStep (Ico 128 256) z) j), data, label, fun i hi => ?_, ?_⟩
  · obtain ⟨vr, o, -, g1, g2, g3, g4⟩ := h3 i hi
    exact ⟨vr, o, g1, g2, g3, g4, (mb_plain hz hi).1⟩
  · have hc := count_eq fun i hi => (mb_plain hz hi).2
    have hm : ∀ i < 2000, 4 / 10 ^ 4 < |cubic (∑ j ∈ range 20,
        z i j * csvStep2 (Ico 256 384) z (csvStep (Ico 128 256) z) j) - 1 / 2| := fun i hi => (mb_plain hz hi).1
    generalize hq : (fun i => cubic (∑ j ∈ range 20,
      z i j * csvStep2 (Ico 256 384) z (csvStep (Ico 128 256) z) j)) = q at *
    have hq' : ∀ i, cubic (∑ j ∈ range 20,
      z i j * csvStep2 (Ico 256 384) z (csvStep (Ico 128 256) z) j) = q i := fun i => congrFun hq i
    simp only [hq'] at hm hc ⊢
    have e : (1756 : ℤ) = ((∑ i ∈ range 2000, verdict (q i) (csvCell (csvRec i) 20 = 0) : ℕ) : ℤ) := by
      rw [hc]; rfl
    rw [h2, e]
    push_cast
    rw [← sum_sub_distrib, card_filter]
    refine (abs_sum_le_sum_abs _ _).trans ?_
    push_cast
    refine sum_le_sum fun i hi => ?_
    have hmi := hm i (mem_range.mp hi)
    generalize ((out.results.getD i []).getD 0 0).re = r at *
    generalize q i = p at *
    split <;> rename_i hn
    · have a := verdict_le r (csvCell (csvRec i) 20 = 0)
      have b := verdict_le p (csvCell (csvRec i) 20 = 0)
      rw [abs_le]
      constructor <;> omega
    · rw [verdict_congr (q := p) _ ?_, sub_self, abs_zero]
      push Not at hn
      rw [abs_lt] at hn
      rcases lt_abs.mp hmi with h' | h' <;> norm_num at h' hn ⊢ <;> constructor <;> intro <;>
        linarith [hn.1, hn.2]

end MK.Lr
