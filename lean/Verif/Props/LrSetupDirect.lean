import Verif.Props.LrSetup

/-!
# C50: the rotations of the programs have their own keys
-/

noncomputable section

namespace MK.Lr

variable {C : Ctx} {B D : ℤ}

/-- The rotation amounts of the programs that are less than a full turn of the 8192 slots: the
powers of two (lr/lr.go 286, 342, 390, 431, 440), their negatives below 16 columns (446), and the
further amounts the setup asks for (457). -/
def Amount (r : ℤ) : Prop :=
  (∃ i < 13, r = 2 ^ i) ∨ (∃ i < 4, r = -2 ^ i) ∨
    r = 14 ∨ r = 15 ∨ r = 384 ∨ r = 640 ∨ r = 768 ∨ r = 896

/-- C50, at the ring degree of the programs: every amount has a rotation key of its own for every
party, with the reference-string element of that amount; none goes through the chain of powers of
two. -/
theorem C50_direct (hC : C.Good) (hF : C.Fits) (hN : C.N = 2 ^ 14)
    {prm : CPar C} (hfl : prm.fl.Ok) (hsc : 0 < prm.scale)
    {sample sample' : ℤ → SwKey C} (hlen : ((sample 0) 0).Q.len = C.nQ)
    (hcrs : prm.crs = setupCRS 14 sample sample') (hq : 2 < C.q 0) (hB0 : 0 ≤ B)
    (hB : 2 * B < C.q 0) (hD0 : 0 ≤ D) (hD : digitMax C D) {rnd : String → PartyRand C}
    (order : List String) (hr : ∀ id ∈ order, (rnd id).Ok B) :
    ∃ kb, genTestParams 14 (newCRS 14 sample) sample' rnd order = .ok (prm.crs, kb) ∧
      ∀ id ∈ order, ∀ r, Amount r → ∃ (n : ℕ) (rk : RotKey C) (a : SwKey C)
        (e : ℕ → Nega C.N ℤ), ((n : ℤ) = r ∨ (n : ℤ) = r + 8192) ∧
        kb.rtkSet.get id n = .ok rk ∧ prm.crs.get? (n : ℤ) = some a ∧ (∀ k, (e k).Bdd B) ∧
        SwEq rk.value a (Nega.auto (galInv C.N (galCol C.N n)) (rnd id).s) (rnd id).s e := by
  obtain ⟨kb, e, hk, -⟩ := C50_genTestParams hC hF hN (by norm_num) hfl hsc hlen hcrs hq hB0 hB hD0
    hD order hr
  refine ⟨kb, e, fun id hid r ha => ?_⟩
  have key : ∀ n : ℕ, (n : ℤ) ∈ allRots 14 → ((n : ℤ) = r ∨ (n : ℤ) = r + 8192) →
      ∃ (n : ℕ) (rk : RotKey C) (a : SwKey C)
        (e : ℕ → Nega C.N ℤ), ((n : ℤ) = r ∨ (n : ℤ) = r + 8192) ∧
        kb.rtkSet.get id n = .ok rk ∧ prm.crs.get? (n : ℤ) = some a ∧ (∀ k, (e k).Bdd B) ∧
        SwEq rk.value a (Nega.auto (galInv C.N (galCol C.N n)) (rnd id).s) (rnd id).s e := by
    intro n hn hnr
    obtain ⟨rk, a, e, h1, h2, -, -, h3, h4⟩ := (hk id hid).rot n hn
    exact ⟨n, rk, a, e, hnr, RotationKeySet.get_of_get2 h2, h1, h3, h4⟩
  rcases ha with ⟨i, hi, rfl⟩ | ⟨i, hi, rfl⟩ | rfl | rfl | rfl | rfl | rfl | rfl
  · refine key (2 ^ i) ?_ (.inl (by push_cast; rfl))
    unfold allRots
    exact List.mem_append_right _ (List.mem_map.mpr ⟨i, List.mem_range.mpr hi, rfl⟩)
  · refine key (8192 - 2 ^ i) ?_ (.inr ?_)
    · unfold allRots lrRots
      interval_cases i <;> simp
    · interval_cases i <;> norm_num
  all_goals
    first
    | exact key 14 (by simp [allRots, lrRots]) (.inl rfl)
    | exact key 15 (by simp [allRots, lrRots]) (.inl rfl)
    | exact key 384 (by simp [allRots, lrRots]) (.inl rfl)
    | exact key 640 (by simp [allRots, lrRots]) (.inl rfl)
    | exact key 768 (by simp [allRots, lrRots]) (.inl rfl)
    | exact key 896 (by simp [allRots, lrRots]) (.inl rfl)

/-- The amounts of `SumColVec` with 16 columns: `-8`, and `8`. -/
example : Amount (-8) ∧ Amount 8 ∧ ¬ Amount 3 := by
  refine ⟨.inr (.inl ⟨3, by norm_num, by norm_num⟩), .inl ⟨3, by norm_num, by norm_num⟩, ?_⟩
  rintro (⟨i, hi, h⟩ | ⟨i, hi, h⟩ | h | h | h | h | h | h)
  · interval_cases i <;> norm_num at h
  · interval_cases i <;> norm_num at h
  all_goals norm_num at h

end MK.Lr
