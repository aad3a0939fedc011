import Verif.Props.Helpers
import Verif.Props.ExWord

/-!
# Concrete instances of C59 and C60
-/

namespace MK.Word

/-- A transform of rows of four words: reversal. -/
def revT : LazyNTT 4 := ⟨fun q x n => x n.rev % q, fun q x n => x n.rev % q⟩

/-- The linear bijection of `revT`. -/
def revLin (q : ℕ) : (Fin 4 → ZMod q) ≃ₗ[ZMod q] (Fin 4 → ZMod q) :=
  LinearEquiv.funCongrLeft (ZMod q) (ZMod q) Fin.revPerm

theorem revT_ok {q : ℕ} (hq : Modulus q) : revT.Ok q (revLin q) where
  fwd_lt x _ n := (Nat.mod_lt _ hq.pos).trans_le (by have := hq.pos; omega)
  fwd x n := by
    show ((x n.rev % q : ℕ) : ZMod q) = _
    rw [ZMod.natCast_mod]; rfl
  inv_lt x n := (Nat.mod_lt _ hq.pos).trans_le (by have := hq.lt; omega)
  inv x n := by
    show ((x n.rev % q : ℕ) : ZMod q) = _
    rw [ZMod.natCast_mod]; rfl

/-- The rows of the transform of the constant polynomial family `n ↦ x n`. -/
def revRows (M : List ℕ) (x : Fin 4 → ℕ) : List (Fin 4 → ℕ) := M.map fun q n => x n.rev % q

theorem revRows_spec (M : List ℕ) (x : Fin 4 → ℕ) (i q : ℕ) (r : Fin 4 → ℕ) (hq : M[i]? = some q)
    (hr : (revRows M x)[i]? = some r) : r = fun n => x n.rev % q := by
  rw [revRows, List.getElem?_map, hq] at hr
  exact (Option.some.inj hr).symm

/-- The polynomial of the instance. -/
def exX : Fin 4 → ℕ := fun n => 1000000 + 12345 * n

/-- C59: a polynomial with four coefficients at levels 2 and 1; the first coefficient of the
quotient by `409·433` is `5`, and `p1P` is left in coefficient form. -/
example : ∃ out p1P', (newExtender wQ wP).ModDownQPtoQNTT Fl.double revT stale
      (List.replicate 4 fun _ => 9) 2 1 (revRows wQ exX) (revRows wP exX)
      (List.replicate 4 fun _ => 3) = .ok (out, p1P') ∧
    (∃ r, out[2]? = some r ∧ r 3 < 257 ∧ (r 3 : ZMod 257) = 5) ∧
    out[3]? = some (fun _ => 3) ∧
    (∃ r, p1P'[1]? = some r ∧ (r 0 : ℤ) ≡ 1000000 [ZMOD 433]) := by
  obtain ⟨out, p1P', d, h1, h2, h3, h4, h5, h6, h7⟩ := C59_ModDownQPtoQNTT (F := Fl.double) (Q := wQ)
    (P := wP) (levelQ := 2) (levelP := 1) (T := revT) (lin := revLin) (y := stale)
    (pool := List.replicate 4 fun _ => 9) (p1Q := revRows wQ exX) (p1P := revRows wP exX)
    (p2Q := List.replicate 4 fun _ => 3) Fl.double_ok wQ_mod wP_mod (by decide) (by decide)
    (by decide) (by decide) (by decide) (fun q hq => revT_ok (wQ_mod q hq))
    (fun q hq => revT_ok (wP_mod q hq)) rfl (by decide) (by decide) (by decide)
    (by
      intro r hr n
      rw [revRows, List.mem_map] at hr
      obtain ⟨q, hq, rfl⟩ := hr
      have h1 := Nat.mod_lt (exX n.rev) (wP_mod q hq).pos
      have h2 := (wP_mod q hq).lt
      show exX n.rev % q < 2 ^ 64
      omega)
    (by decide) (fun n => (exX n : ℤ))
    (fun i q r _ hq hr n => by
      rw [revRows_spec _ _ i q r hq hr]
      have := Nat.mod_lt (exX n.rev) (wQ_mod q (List.mem_of_getElem? hq)).pos
      show exX n.rev % q ≤ 2 * q
      omega)
    (fun i q r _ hq hr n => by
      rw [revRows_spec _ _ i q r hq hr]
      show ((exX n.rev % q : ℕ) : ZMod q) = (((exX n.rev : ℕ) : ℤ) : ZMod q)
      rw [ZMod.natCast_mod, Int.cast_natCast])
    (fun i q r _ hq hr n => by
      rw [revRows_spec _ _ i q r hq hr]
      show ((exX n.rev % q : ℕ) : ZMod q) = (((exX n.rev : ℕ) : ℤ) : ZMod q)
      rw [ZMod.natCast_mod, Int.cast_natCast])
  refine ⟨out, p1P', h1, ?_, ?_, ?_⟩
  · obtain ⟨r, r1, r2⟩ := h4 2 257 le_rfl rfl
    refine ⟨r, r1, (r2 3).1, ?_⟩
    rw [(r2 3).2]
    show (((((exX 0 : ℕ) : ℤ) / (((wP.take 2).prod : ℕ) : ℤ) + d 0 : ℤ)) : ZMod 257) = 5
    have hd : d 0 = 0 := h6 0 (by decide) (by decide)
    rw [hd]
    rfl
  · rw [h5 3 (by norm_num)]; rfl
  · obtain ⟨r, r1, r2⟩ := h7 1 433 le_rfl rfl
    exact ⟨r, r1, r2 0⟩

/-- C59: two extenders sharing the tables, with different work arrays and pools. -/
example : (newExtender wQ wP).ModDownQPtoQ Fl.double stale [1, 2, 3, 4] 2 1 (residues wQ 1000000)
      (residues wP 1000000) [0, 0, 0, 0] =
    (newExtender wQ wP).ModDownQPtoQ Fl.double (List.replicate 32 0) [0, 0, 0, 0] 2 1
      (residues wQ 1000000) (residues wP 1000000) [0, 0, 0, 0] :=
  (C59_ShallowCopy Fl.double (newExtender wQ wP) (y := stale) (y' := List.replicate 32 0)
    (pool := [1, 2, 3, 4]) (pool' := [0, 0, 0, 0]) rfl rfl 2 1 _ _ _).1

end MK.Word

namespace MK.Utils

open MK.Word

theorem prec_exact (prec : ℕ) : Prec prec id :=
  ⟨fun x => by simp only [id, sub_self, abs_zero]; positivity, rfl⟩

/-- C60: `-2.5` scaled by 4 modulo 97: the word is `97 + 87`. -/
example : scaleUpBig id (-5 / 2) 4 97 = 184 ∧ ¬ scaleUpBig id (-5 / 2) 4 97 < 97 := by
  have h := (C60_scaleUpBig (prec := 53) (by norm_num) (prec_exact 53) (-5 / 2) (scale := 4)
    (by norm_num) (q := 97) (by norm_num) (by norm_num))
  obtain ⟨z, h1, h2, h3, h4⟩ := h
  have hnl : ¬ scaleUpBig id (-5 / 2) 4 97 < 97 := fun h => by
    have := h4.mp h
    norm_num at this
  refine ⟨?_, hnl⟩
  have hz : z = -10 := by
    have h5 : (4 : ℚ) * (-5 / 2) = -10 := by norm_num
    rw [h5] at h1
    have h6 : |(z : ℚ) + 10| < 1 := by
      have : (z : ℚ) - -10 = z + 10 := by ring
      rw [this] at h1
      refine lt_of_le_of_lt h1 ?_
      rw [show |(-10 : ℚ)| = 10 by norm_num]
      norm_num
    have h7 : |z + 10| < 1 := by exact_mod_cast h6
    have := Int.abs_lt_one_iff.mp h7
    omega
  subst hz
  unfold Int.ModEq at h2
  omega

/-- C60: a vector of two values into rows of three words; the last column keeps its content. -/
example : ∃ out, scaleUpVecExactBigFloat id [3 / 2, -5 / 2] 4 [97, 193] [[7, 7, 7], [8, 8, 8]] = .ok out ∧
    at2 out 0 0 = some (scaleUpBig id (3 / 2) 4 97) ∧ at2 out 1 2 = some 8 := by
  obtain ⟨out, h1, -, -, h2, h3⟩ := C60_scaleUpVecExactBigFloat id (values := [3 / 2, -5 / 2])
    (by simp) 4 [97, 193] (coeffs := [[7, 7, 7], [8, 8, 8]]) (M := 3) (by simp) (by simp) (by simp)
  exact ⟨out, h1, h2 0 (by simp) 0 (by simp), h3 1 2 (by simp)⟩

/-- C60: `12345` at scale `1000`. -/
example : |scaleDown Fl.double 12345 1000 - 12.345| ≤ 1 / 10 ^ 14 ∧
    scaleDown Fl.double 12345 1000 ≠ (12345 : ℤ) / 1000 ^ 2 := by
  refine ⟨?_, C60_scaleDown_not_square Fl.double_ok (by norm_num) (by norm_num)⟩
  have := C60_scaleDown Fl.double_ok 12345 1000
  refine le_trans ?_ (this.trans ?_)
  · norm_num
  · norm_num [abs_of_pos]

/-- C60: the standard deviation of `1, 3` is `1`, of `5, 5, 5` is `0`. -/
example : StandardDeviation [1, 3] 1 = some 1 ∧ StandardDeviation [5, 5, 5] 2 = some 0 := by
  constructor
  · obtain ⟨s, e, h, h0, -⟩ := (C60_StandardDeviation [1, 3] 1).2 (by simp)
    have hs := h0 zero_le_one
    norm_num at h
    rw [e, Option.some.injEq]
    rcases h with h | h <;> linarith
  · exact (C60_StandardDeviation_zero (by simp) two_ne_zero).mpr (by simp)

end MK.Utils
