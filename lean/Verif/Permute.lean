import Verif.KeyGen
import Mathlib.Data.Nat.Size
import Mathlib.Data.Nat.Bitwise

/-!
# The coefficient permutation loop of `Rotate`, `RotateHoisted` and lattigo's `Permute`
-/

noncomputable section

namespace MK

/-- `index = indexRaw & mask` with `mask = N-1`, `indexRaw = i*galEl`
(mkrlwe/keyswitch.go 272-280). -/
def permIdx (N g i : ℕ) : ℕ := (i * g) &&& (N - 1)

/-- `tmp = (indexRaw >> logN) & 1` with `logN = bits.Len64(mask)`
(mkrlwe/keyswitch.go 274, 282). -/
def permTmp (N g i : ℕ) : ℕ := ((i * g) >>> Nat.size (N - 1)) &&& 1

theorem permIdx_lt {N : ℕ} [NeZero N] (g i : ℕ) : permIdx N g i < N := by
  have h : permIdx N g i ≤ N - 1 := Nat.and_le_right
  have := NeZero.pos N
  omega

/-- One row of the loop (mkrlwe/keyswitch.go 276-292, mkrlwe/keyswitch_hoisted.go 225-241):
`out[index] = a[i]*(tmp^1) | (q-a[i])*tmp`, as a residue.  `out` holds stale data. -/
def permRow {N m : ℕ} [NeZero N] (g : ℕ) (a out : Row N m) : Row N m :=
  forLt N (fun i out => if h : i < N then
    Function.update out ⟨permIdx N g i, permIdx_lt g i⟩
      (if permTmp N g i = 0 then a ⟨i, h⟩ else - a ⟨i, h⟩) else out) out

/-- The word written by the loop (mkrlwe/keyswitch.go 290): `a*(tmp^1) | (q-a)*tmp`. -/
def permWord (q a tmp : ℕ) : ℕ := (a * (tmp ^^^ 1)) ||| ((q - a) * tmp)

theorem permIdx_eq {k g i : ℕ} : permIdx (2 ^ k) g i = (i * g) % 2 ^ k := by
  unfold permIdx; exact Nat.and_two_pow_sub_one_eq_mod _ _

theorem size_two_pow_sub_one (k : ℕ) : Nat.size (2 ^ k - 1) = k := by
  have h1 : 0 < 2 ^ k := by positivity
  apply le_antisymm
  · exact Nat.size_le.mpr (by omega)
  · rcases k with _ | k
    · simp
    · rw [Nat.succ_le_iff, Nat.lt_size]
      rw [pow_succ]
      have : 0 < 2 ^ k := by positivity
      omega

theorem permTmp_eq {k g i : ℕ} : permTmp (2 ^ k) g i = (i * g / 2 ^ k) % 2 := by
  unfold permTmp
  rw [size_two_pow_sub_one, Nat.and_one_is_mod, Nat.shiftRight_eq_div_pow]

theorem permRow_spec {N m : ℕ} [NeZero N] (g : ℕ)
    (hinj : ∀ i j, i < N → j < N → permIdx N g i = permIdx N g j → i = j)
    (a out : Row N m) (i : ℕ) (hi : i < N) :
    permRow g a out ⟨permIdx N g i, permIdx_lt g i⟩ =
      if permTmp N g i = 0 then a ⟨i, hi⟩ else - a ⟨i, hi⟩ := by
  have key : ∀ n ≤ N, i < n → forLt n (fun i out => if h : i < N then
      Function.update out ⟨permIdx N g i, permIdx_lt g i⟩
      (if permTmp N g i = 0 then a ⟨i, h⟩ else - a ⟨i, h⟩) else out) out
        ⟨permIdx N g i, permIdx_lt g i⟩ =
      if permTmp N g i = 0 then a ⟨i, hi⟩ else - a ⟨i, hi⟩ := by
    intro n
    induction n with
    | zero => intro _ h; omega
    | succ n ih =>
      intro hn hin
      simp only [forLt]
      rw [dif_pos (by omega : n < N)]
      by_cases h : i = n
      · subst h
        rw [Function.update_self]
      · rw [Function.update_of_ne, ih (by omega) (by omega)]
        intro he
        exact h (hinj i n hi (by omega) (Fin.mk.inj he))
  exact key N le_rfl hi

theorem permIdx_inj {k g : ℕ} (hg : Odd g) (i j : ℕ) (hi : i < 2 ^ k) (hj : j < 2 ^ k)
    (h : permIdx (2 ^ k) g i = permIdx (2 ^ k) g j) : i = j := by
  rw [permIdx_eq, permIdx_eq] at h
  have hc : Nat.gcd (2 ^ k) g = 1 := (Nat.Coprime.pow_left k hg.coprime_two_left)
  have := Nat.ModEq.cancel_right_of_coprime (m := 2 ^ k) (c := g) hc h
  rw [Nat.ModEq, Nat.mod_eq_of_lt hi, Nat.mod_eq_of_lt hj] at this
  exact this

/-- The loop computes the automorphism `X ↦ X^g`, whatever the output row held before. -/
theorem permRow_auto {N m k : ℕ} [NeZero N] (hN : N = 2 ^ k) {g : ℕ} (hg : Odd g)
    (a out : Row N m) : permRow g a out = (Nega.auto g (⟨a⟩ : Nega N (ZMod m))).coeff := by
  subst hN
  have hinj := permIdx_inj (k := k) hg
  have hinj' : Function.Injective fun i : Fin (2 ^ k) =>
      (⟨permIdx (2 ^ k) g i, permIdx_lt g i⟩ : Fin (2 ^ k)) := by
    intro i j h
    exact Fin.ext (hinj i j i.isLt j.isLt (Fin.mk.inj h))
  funext n
  obtain ⟨i, hi⟩ := Finite.injective_iff_surjective.mp hinj' n
  subst hi
  rw [permRow_spec g hinj a out i i.isLt, Nega.coeff_auto, Finset.sum_eq_single i]
  · rw [if_pos permIdx_eq.symm, Nega.sgn, permTmp_eq]
    rcases Nat.mod_two_eq_zero_or_one (i * g / 2 ^ k) with h | h
    · rw [h, if_pos rfl, Even.neg_one_pow (Nat.even_iff.mpr h), one_smul]
    · rw [h, if_neg one_ne_zero, Odd.neg_one_pow (Nat.odd_iff.mpr h), neg_smul, one_smul]
  · intro j _ hj
    rw [if_neg]
    intro h
    apply hj
    apply Fin.ext
    exact hinj j i j.isLt i.isLt (by rw [permIdx_eq]; exact h)
  · intro h; exact absurd (Finset.mem_univ _) h

end MK
