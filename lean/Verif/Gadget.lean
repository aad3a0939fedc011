import Verif.KeyGen
import Mathlib.Data.Rat.Floor
import Mathlib.Algebra.Order.Floor.Div
import Mathlib.Algebra.GCDMonoid.Nat
import Mathlib.Tactic.FieldSimp

/-!
# RNS base conversion, digits and ModDown (mathematical content)

`baseLift` is the integer that `DecomposeAndSplit`, `modUpExact` and `ModDownQPtoQ` reduce
modulo the target primes.  `Verif/Word.lean` shows that the word-level code computes residues
of it.
-/

noncomputable section

namespace MK

open Finset

/-- `Q = ∏ m_i` over the source primes. -/
def baseProd (M : ℕ → ℕ) (len : ℕ) : ℕ := ∏ i ∈ range len, M i

/-- `Q/m_i`. -/
def baseQuot (M : ℕ → ℕ) (len i : ℕ) : ℕ := baseProd M len / M i

/-- `y_i = x_i * (Q/m_i)^{-1} mod m_i` (mkrlwe/basis_extension.go 489-496, 552-559). -/
def liftY (M : ℕ → ℕ) (len : ℕ) (x : (i : ℕ) → ZMod (M i)) (i : ℕ) : ℕ :=
  (x i * (baseQuot M len i : ZMod (M i))⁻¹).val

/-- The list `(y_i, m_i)` from which the floating-point quotient is computed. -/
def liftList (M : ℕ → ℕ) (len : ℕ) (x : (i : ℕ) → ZMod (M i)) : List (ℕ × ℕ) :=
  (List.range len).map fun i => (liftY M len x i, M i)

/-- The integer whose residues base conversion computes: `Σ y_i Q/m_i - v Q`
(mkrlwe/basis_extension.go 454-534, 537-646). -/
def baseLift (fv : List (ℕ × ℕ) → ℕ) (M : ℕ → ℕ) (len : ℕ) (x : (i : ℕ) → ZMod (M i)) : ℤ :=
  ∑ i ∈ range len, (liftY M len x i : ℤ) * baseQuot M len i
    - (fv (liftList M len x) : ℤ) * baseProd M len

/-- The floating-point quotient is within one of the exact floor, for at most 32 words below
primes of at most 61 bits. -/
def FloatOK (fv : List (ℕ × ℕ) → ℕ) : Prop :=
  ∀ l : List (ℕ × ℕ), l.length ≤ 32 → (∀ p ∈ l, p.1 < p.2 ∧ p.2 < 2 ^ 61) →
    |(fv l : ℤ) - ⌊(l.map fun p => (p.1 / p.2 : ℚ)).sum⌋| ≤ 1

section Lift

variable {M : ℕ → ℕ} {len : ℕ}

theorem baseProd_pos (hpos : ∀ i, 0 < M i) : 0 < baseProd M len :=
  Finset.prod_pos fun i _ => hpos i

theorem dvd_baseProd {i : ℕ} (hi : i < len) : M i ∣ baseProd M len :=
  Finset.dvd_prod_of_mem _ (mem_range.mpr hi)

theorem baseQuot_eq {i : ℕ} (hpos : ∀ i, 0 < M i) (hi : i < len) :
    baseQuot M len i = ∏ j ∈ (range len).erase i, M j := by
  rw [baseQuot, baseProd, ← Finset.mul_prod_erase _ _ (mem_range.mpr hi), Nat.mul_div_cancel_left _ (hpos i)]

theorem dvd_baseQuot {i j : ℕ} (hpos : ∀ i, 0 < M i) (hi : i < len) (hj : j < len)
    (hij : i ≠ j) : M i ∣ baseQuot M len j := by
  rw [baseQuot_eq hpos hj]
  exact Finset.dvd_prod_of_mem _ (mem_erase.mpr ⟨hij, mem_range.mpr hi⟩)

theorem coprime_baseQuot {i : ℕ} (hpos : ∀ i, 0 < M i)
    (hcop : ∀ i j, i < len → j < len → i ≠ j → (M i).Coprime (M j)) (hi : i < len) :
    (baseQuot M len i).Coprime (M i) := by
  rw [baseQuot_eq hpos hi]
  refine Nat.Coprime.prod_left fun j hj => ?_
  rw [mem_erase, mem_range] at hj
  exact hcop j i hj.2 hi hj.1

theorem liftY_lt (hpos : ∀ i, 0 < M i) (x : (i : ℕ) → ZMod (M i)) (i : ℕ) :
    liftY M len x i < M i := by
  have : NeZero (M i) := ⟨(hpos i).ne'⟩
  exact ZMod.val_lt _

/-- Base conversion is congruent to the source residues. -/
theorem baseLift_cast (fv : List (ℕ × ℕ) → ℕ) (hpos : ∀ i, 0 < M i)
    (hcop : ∀ i j, i < len → j < len → i ≠ j → (M i).Coprime (M j))
    (x : (i : ℕ) → ZMod (M i)) {i : ℕ} (hi : i < len) :
    (baseLift fv M len x : ZMod (M i)) = x i := by
  have : NeZero (M i) := ⟨(hpos i).ne'⟩
  unfold baseLift
  rw [← Finset.add_sum_erase _ _ (mem_range.mpr hi)]
  push_cast
  have h1 : ((baseProd M len : ℕ) : ZMod (M i)) = 0 :=
    (ZMod.natCast_eq_zero_iff _ _).mpr (dvd_baseProd hi)
  rw [h1, mul_zero, sub_zero, Finset.sum_eq_zero, add_zero]
  · unfold liftY
    rw [ZMod.natCast_zmod_val, mul_assoc, mul_comm _⁻¹,
      ZMod.coe_mul_inv_eq_one _ (coprime_baseQuot hpos hcop hi), mul_one]
  · intro j hj
    rw [mem_erase, mem_range] at hj
    rw [(ZMod.natCast_eq_zero_iff _ _).mpr (dvd_baseQuot hpos hi hj.2 hj.1.symm), mul_zero]

theorem list_sum_range {α : Type _} [AddCommMonoid α] (f : ℕ → α) (n : ℕ) :
    ((List.range n).map f).sum = ∑ i ∈ range n, f i := by
  induction n with
  | zero => rfl
  | succ n ih =>
    rw [List.range_succ, List.map_append, List.sum_append, ih, Finset.sum_range_succ]
    simp

theorem liftList_sum (hpos : ∀ i, 0 < M i) (x : (i : ℕ) → ZMod (M i)) :
    ((liftList M len x).map fun p => (p.1 / p.2 : ℚ)).sum * baseProd M len =
      ((∑ i ∈ range len, (liftY M len x i : ℤ) * baseQuot M len i : ℤ) : ℚ) := by
  have h : ((liftList M len x).map fun p => (p.1 / p.2 : ℚ)).sum =
      ∑ i ∈ range len, (liftY M len x i / M i : ℚ) := by
    unfold liftList
    rw [List.map_map, list_sum_range]
    rfl
  rw [h, Finset.sum_mul]
  push_cast
  refine Finset.sum_congr rfl fun i hi => ?_
  have hM : (M i : ℚ) ≠ 0 := by exact_mod_cast (hpos i).ne'
  rw [baseQuot, Nat.cast_div (dvd_baseProd (mem_range.mp hi)) hM]
  field_simp

/-- Size of base conversion: within one multiple of `Q` of the CRT representative. -/
theorem baseLift_abs_lt {fv : List (ℕ × ℕ) → ℕ} (hfv : FloatOK fv) (hpos : ∀ i, 0 < M i)
    (hlen : len ≤ 32) (hM : ∀ i < len, M i < 2 ^ 61) (x : (i : ℕ) → ZMod (M i)) :
    |baseLift fv M len x| < 2 * baseProd M len ∧
      ∃ d : ℤ, |d| ≤ 1 ∧ 0 ≤ baseLift fv M len x + d * baseProd M len ∧
        baseLift fv M len x + d * baseProd M len < baseProd M len := by
  have hP : (0 : ℚ) < baseProd M len := by exact_mod_cast baseProd_pos hpos
  set S : ℤ := ∑ i ∈ range len, (liftY M len x i : ℤ) * baseQuot M len i with hS
  set σ : ℚ := ((liftList M len x).map fun p => (p.1 / p.2 : ℚ)).sum with hσ
  have hmul : σ * baseProd M len = S := liftList_sum hpos x
  have hv := hfv (liftList M len x) (by simpa [liftList] using hlen) (by
    intro p hp
    simp only [liftList, List.mem_map, List.mem_range] at hp
    obtain ⟨i, hi, rfl⟩ := hp
    exact ⟨liftY_lt hpos x i, hM i hi⟩)
  rw [← hσ] at hv
  have h1 := Int.floor_le σ
  have h2 := Int.lt_floor_add_one σ
  have e1 : (⌊σ⌋ * baseProd M len : ℤ) ≤ S := by
    have : (⌊σ⌋ : ℚ) * baseProd M len ≤ S := by rw [← hmul]; gcongr
    exact_mod_cast this
  have e2 : S < (⌊σ⌋ + 1) * baseProd M len := by
    have : (S : ℚ) < (⌊σ⌋ + 1 : ℚ) * baseProd M len := by
      rw [← hmul]; exact mul_lt_mul_of_pos_right h2 hP
    exact_mod_cast this
  have hb : baseLift fv M len x = S - (fv (liftList M len x) : ℤ) * baseProd M len := rfl
  have hPz : (0 : ℤ) < baseProd M len := by exact_mod_cast baseProd_pos hpos
  set v : ℤ := (fv (liftList M len x) : ℤ)
  rw [abs_le] at hv
  have hd0 : 0 ≤ baseLift fv M len x + (v - ⌊σ⌋) * baseProd M len := by
    rw [hb]; nlinarith
  have hd1 : baseLift fv M len x + (v - ⌊σ⌋) * baseProd M len < baseProd M len := by
    rw [hb]; nlinarith
  refine ⟨?_, v - ⌊σ⌋, abs_le.mpr hv, hd0, hd1⟩
  rw [abs_lt]
  constructor <;> nlinarith

end Lift

/-! ## Digits -/

variable {C : Ctx}

/-- The number of primes of block `k` at level `L`: `decompLvl + 2` of `DecomposeAndSplit`
(mkrlwe/basis_extension.go 433-440). -/
def blockLen (C : Ctx) (L k : ℕ) : ℕ :=
  if L > C.alpha * (k + 1) - 1 then C.alpha else L % C.alpha + 1

/-- The primes of block `k`. -/
def blockMod (C : Ctx) (k i : ℕ) : ℕ := C.q (C.alpha * k + i)

/-- The `k`-th digit of the polynomial with residues `c`: for a single-prime block the residue
itself (mkrlwe/basis_extension.go 443-451), otherwise the base-converted integer (454-534). -/
def digit (C : Ctx) (L : ℕ) (c : (i : ℕ) → Nega C.N (ZMod (C.q i))) (k : ℕ) : Nega C.N ℤ :=
  ⟨fun x => if blockLen C L k = 1 then (((c (C.alpha * k)).coeff x).val : ℤ)
    else baseLift C.fv (blockMod C k) (blockLen C L k) fun i => (c (C.alpha * k + i)).coeff x⟩

/-- Additional validity of the parameters for base conversion: at most 32 primes per block and
special primes (size of the word arrays, mkrlwe/basis_extension.go 459), moduli below `2^61`
(lattigo's limit), and the floating-point quotient within one of the exact one. -/
structure Ctx.Fits (C : Ctx) : Prop where
  float : FloatOK C.fv
  q_lt : ∀ i, C.q i < 2 ^ 61
  p_lt : ∀ i, C.p i < 2 ^ 61
  nP_le : C.nP ≤ 32

/-- Beta counts blocks: the block of every prime up to the level is a digit. -/
theorem block_lt_beta (ha : 0 < C.alpha) {L i : ℕ} (hi : i ≤ L) : i / C.alpha < C.beta L := by
  unfold Ctx.beta
  rw [Nat.add_div_right _ ha]
  exact Nat.lt_succ_of_le (Nat.div_le_div_right hi)

theorem beta_le_betaMax {L : ℕ} (hL : L < C.nQ) : C.beta L ≤ C.betaMax := by
  unfold Ctx.betaMax Ctx.beta
  exact Nat.div_le_div_right (by omega)

theorem blockLen_spec (ha : 0 < C.alpha) {L k : ℕ} (hk : k < C.beta L) :
    0 < blockLen C L k ∧ blockLen C L k ≤ C.alpha ∧
      ∀ i, C.alpha * k + i ≤ L ∧ i < C.alpha ↔ i < blockLen C L k := by
  unfold Ctx.beta at hk
  rw [Nat.add_div_right _ ha] at hk
  have hkL : k ≤ L / C.alpha := Nat.lt_succ_iff.mp hk
  have h1 : C.alpha * k ≤ L := by
    calc C.alpha * k ≤ C.alpha * (L / C.alpha) := Nat.mul_le_mul_left _ hkL
      _ ≤ L := Nat.mul_div_le _ _
  have h2 := Nat.mod_lt L ha
  unfold blockLen
  split
  · rename_i h
    rw [Nat.mul_succ] at h
    refine ⟨ha, le_rfl, fun i => ?_⟩
    constructor
    · exact fun h => h.2
    · intro h; exact ⟨by omega, h⟩
  · rename_i h
    rw [Nat.mul_succ] at h
    have hk' : L / C.alpha = k := by
      rw [Nat.div_eq_iff ha, mul_comm k]; constructor <;> omega
    have := Nat.div_add_mod L C.alpha
    rw [hk'] at this
    refine ⟨by omega, by omega, fun i => ?_⟩
    constructor
    · intro h; omega
    · intro h; omega

theorem blockMod_pos (hC : C.Good) (k i : ℕ) : 0 < blockMod C k i := hC.posQ _

theorem block_coprime (hC : C.Good) {L k : ℕ} (hL : L < C.nQ) (hk : k < C.beta L) (i j : ℕ)
    (hi : i < blockLen C L k) (hj : j < blockLen C L k) (hij : i ≠ j) :
    (blockMod C k i).Coprime (blockMod C k j) := by
  obtain ⟨-, -, h⟩ := blockLen_spec hC.alpha_pos' hk
  have h1 := ((h i).mpr hi).1
  have h2 := ((h j).mpr hj).1
  exact hC.copQ _ _ (by omega) (by omega) (by omega)

/-- Digit `k` is congruent to the polynomial modulo every prime of block `k`. -/
theorem digit_red (hC : C.Good) {L i : ℕ} (hL : L < C.nQ) (hi : i ≤ L)
    (c : (i : ℕ) → Nega C.N (ZMod (C.q i))) :
    Nega.red (C.q i) (digit C L c (i / C.alpha)) = c i := by
  have ha := hC.alpha_pos'
  have hk := block_lt_beta ha hi (C := C)
  obtain ⟨h0, h1, h2⟩ := blockLen_spec ha hk
  set k := i / C.alpha with hkdef
  have hdm : C.alpha * k + i % C.alpha = i := Nat.div_add_mod i C.alpha
  have hm := Nat.mod_lt i ha
  have hib : i % C.alpha < blockLen C L k := (h2 _).mp ⟨by omega, hm⟩
  obtain ⟨r, hr⟩ : ∃ r, i = C.alpha * k + r := ⟨i % C.alpha, hdm.symm⟩
  have hrr : i % C.alpha = r := by omega
  rw [hrr] at hib
  clear_value k
  subst hr
  ext x
  rw [Nega.coeff_red]
  unfold digit
  dsimp only
  split
  · rename_i hb
    have : r = 0 := by omega
    subst this
    have : NeZero (C.q (C.alpha * k + 0)) := ⟨(hC.posQ _).ne'⟩
    push_cast
    exact ZMod.natCast_zmod_val _
  · exact baseLift_cast (M := blockMod C k) C.fv (blockMod_pos hC k)
      (block_coprime hC hL hk) (fun i => (c (C.alpha * k + i)).coeff x) hib

/-- The product of the primes of a block at level `L`. -/
def blockProd (C : Ctx) (L k : ℕ) : ℕ := baseProd (blockMod C k) (blockLen C L k)

/-- Each digit is below twice the product of its block in absolute value. -/
theorem digit_bdd (hC : C.Good) (hF : C.Fits) {L k : ℕ} (hk : k < C.beta L)
    (c : (i : ℕ) → Nega C.N (ZMod (C.q i))) (x : Fin C.N) :
    |(digit C L c k).coeff x| < 2 * blockProd C L k := by
  have ha := hC.alpha_pos'
  obtain ⟨h0, h1, h2⟩ := blockLen_spec ha hk
  unfold digit
  dsimp only
  split
  · rename_i hb
    have : NeZero (C.q (C.alpha * k)) := ⟨(hC.posQ _).ne'⟩
    have h := ZMod.val_lt ((c (C.alpha * k)).coeff x)
    have hp : blockProd C L k = C.q (C.alpha * k) := by
      unfold blockProd baseProd; rw [hb]; simp [blockMod]
    rw [hp, abs_of_nonneg (by positivity)]
    omega
  · have h32 : C.alpha ≤ 32 := (Nat.div_le_self _ _).trans hF.nP_le
    exact (baseLift_abs_lt hF.float (blockMod_pos hC k) (h1.trans h32)
      (fun i _ => hF.q_lt _) _).1

/-! ## ModDown -/

/-- The integer lift of a polynomial given modulo the special primes, as computed by
`ModUpPtoQ` (mkrlwe/basis_extension.go 184-186, 337-357). -/
def liftP (C : Ctx) (x : (j : ℕ) → Nega C.N (ZMod (C.p j))) : Nega C.N ℤ :=
  ⟨fun n => baseLift C.fv C.p C.nP fun j => (x j).coeff n⟩

/-- `ModDownQPtoQ` with all special primes (mkrlwe/basis_extension.go 192-232):
`P⁻¹ (x_i - lift)` modulo `q_i`. -/
def modDown (C : Ctx) (xQ : (i : ℕ) → Nega C.N (ZMod (C.q i)))
    (xP : (j : ℕ) → Nega C.N (ZMod (C.p j))) (i : ℕ) : Nega C.N (ZMod (C.q i)) :=
  Nega.const ((C.P : ZMod (C.q i))⁻¹) * (xQ i - Nega.red (C.q i) (liftP C xP))

theorem liftP_red (hC : C.Good) (x : (j : ℕ) → Nega C.N (ZMod (C.p j))) {j : ℕ}
    (hj : j < C.nP) : Nega.red (C.p j) (liftP C x) = x j := by
  ext n
  rw [Nega.coeff_red]
  exact baseLift_cast (M := C.p) C.fv hC.posP hC.copP _ hj

theorem liftP_bdd (hC : C.Good) (hF : C.Fits) (x : (j : ℕ) → Nega C.N (ZMod (C.p j))) :
    (liftP C x).Bdd (2 * C.P) := fun _ =>
  (baseLift_abs_lt (M := C.p) hF.float hC.posP hF.nP_le (fun i _ => hF.p_lt i) _).1.le

theorem Ctx.Good.P_pos (hC : C.Good) : 0 < C.P := Finset.prod_pos fun i _ => hC.posP i

theorem Ctx.Good.P_coprime (hC : C.Good) {i : ℕ} (hi : i < C.nQ) : C.P.Coprime (C.q i) :=
  Nat.Coprime.prod_left fun j hj => (hC.copQP i j hi (mem_range.mp hj)).symm

theorem Ctx.Good.P_inv (hC : C.Good) {i : ℕ} (hi : i < C.nQ) :
    (Nega.const ((C.P : ZMod (C.q i))⁻¹) : Nega C.N (ZMod (C.q i))) * (C.P : Nega C.N _) = 1 := by
  have : ((C.P : ℕ) : Nega C.N (ZMod (C.q i))) = Nega.const (C.P : ZMod (C.q i)) := rfl
  rw [this, Nega.const_mul_const, mul_comm, ZMod.coe_mul_inv_eq_one _ (hC.P_coprime hi)]
  rfl

/-- Division by `P`: an integer polynomial that vanishes modulo every special prime is `P`
times an integer polynomial. -/
theorem exists_div_P (hC : C.Good) {Z : Nega C.N ℤ}
    (hZ : ∀ j < C.nP, Nega.red (C.p j) Z = 0) :
    ∃ W : Nega C.N ℤ, (C.P : Nega C.N ℤ) * W = Z := by
  have h : ∀ n, ((C.P : ℕ) : ℤ) ∣ Z.coeff n := by
    intro n
    unfold Ctx.P
    push_cast
    refine Finset.prod_dvd_of_coprime ?_ ?_
    · intro i hi j hj hij
      rw [mem_coe, mem_range] at hi hj
      exact (Nat.isCoprime_iff_coprime).mpr (hC.copP i j hi hj hij)
    · intro j hj
      have := congrArg (fun z => z.coeff n) (hZ j (mem_range.mp hj))
      simp only [Nega.coeff_red, Nega.coeff_zero] at this
      exact (ZMod.intCast_zmod_eq_zero_iff_dvd _ _).mp this
  choose w hw using h
  refine ⟨⟨w⟩, ?_⟩
  ext n
  rw [Nega.coeff_natCast_mul, hw n]

/-- A weighted sum of ModDowns: if `Σ t_a X_a = P·M + E` modulo every `q_i` and `Σ t_a X_a = E`
modulo every `p_j`, then `Σ t_a ModDown(X_a) = M + W` for one integer polynomial `W` with
`P·W = E - Σ t_a lift(X_a)`. -/
theorem modDown_sum (hC : C.Good) {ι : Type _} (S : Finset ι)
    (t : ι → Nega C.N ℤ) (xQ : ι → (i : ℕ) → Nega C.N (ZMod (C.q i)))
    (xP : ι → (j : ℕ) → Nega C.N (ZMod (C.p j))) (M : (i : ℕ) → Nega C.N (ZMod (C.q i)))
    (E : Nega C.N ℤ) {L : ℕ} (hL : L < C.nQ)
    (hQ : ∀ i ≤ L, ∑ a ∈ S, Nega.red (C.q i) (t a) * xQ a i =
      (C.P : Nega C.N (ZMod (C.q i))) * M i + Nega.red (C.q i) E)
    (hP : ∀ j < C.nP, ∑ a ∈ S, Nega.red (C.p j) (t a) * xP a j = Nega.red (C.p j) E) :
    ∃ W : Nega C.N ℤ, (C.P : Nega C.N ℤ) * W = E - ∑ a ∈ S, t a * liftP C (xP a) ∧
      ∀ i ≤ L, ∑ a ∈ S, Nega.red (C.q i) (t a) * modDown C (xQ a) (xP a) i =
        M i + Nega.red (C.q i) W := by
  obtain ⟨W, hW⟩ := exists_div_P hC (Z := E - ∑ a ∈ S, t a * liftP C (xP a)) (fun j hj => by
    rw [map_sub, map_sum, ← hP j hj]
    rw [sub_eq_zero]
    refine Finset.sum_congr rfl fun a _ => ?_
    rw [map_mul, liftP_red hC _ hj])
  refine ⟨W, hW, fun i hi => ?_⟩
  have hiQ : i < C.nQ := by omega
  unfold modDown
  have h1 : ∑ a ∈ S, Nega.red (C.q i) (t a) * (Nega.const ((C.P : ZMod (C.q i))⁻¹) *
      (xQ a i - Nega.red (C.q i) (liftP C (xP a)))) =
      Nega.const ((C.P : ZMod (C.q i))⁻¹) * (∑ a ∈ S, Nega.red (C.q i) (t a) * xQ a i -
        Nega.red (C.q i) (∑ a ∈ S, t a * liftP C (xP a))) := by
    rw [map_sum, ← Finset.sum_sub_distrib, Finset.mul_sum]
    refine Finset.sum_congr rfl fun a _ => ?_
    rw [map_mul]; ring
  rw [h1, hQ i hi]
  have h2 : Nega.red (C.q i) E - Nega.red (C.q i) (∑ a ∈ S, t a * liftP C (xP a)) =
      (C.P : Nega C.N (ZMod (C.q i))) * Nega.red (C.q i) W := by
    rw [← map_sub, ← hW, map_mul, map_natCast]
  calc Nega.const ((C.P : ZMod (C.q i))⁻¹) * ((C.P : Nega C.N (ZMod (C.q i))) * M i +
        Nega.red (C.q i) E - Nega.red (C.q i) (∑ a ∈ S, t a * liftP C (xP a)))
      = Nega.const ((C.P : ZMod (C.q i))⁻¹) * ((C.P : Nega C.N (ZMod (C.q i))) * M i +
        (Nega.red (C.q i) E - Nega.red (C.q i) (∑ a ∈ S, t a * liftP C (xP a)))) := by ring
    _ = (Nega.const ((C.P : ZMod (C.q i))⁻¹) * (C.P : Nega C.N _)) * M i +
        (Nega.const ((C.P : ZMod (C.q i))⁻¹) * (C.P : Nega C.N _)) * Nega.red (C.q i) W := by
          rw [h2]; ring
    _ = M i + Nega.red (C.q i) W := by rw [hC.P_inv hiQ, one_mul, one_mul]

/-! ## Keys as ring elements and the external product -/

/-- The ring elements held by a switching key: digit `k` modulo `q_i`, modulo `p_j`. -/
structure KeyVal (C : Ctx) where
  Q : ℕ → (i : ℕ) → Nega C.N (ZMod (C.q i))
  P : ℕ → (j : ℕ) → Nega C.N (ZMod (C.p j))

/-- The ring elements stored by a switching key in NTT and Montgomery form. -/
def SwKey.kv (key : SwKey C) : KeyVal C :=
  ⟨fun k i => C.nttQ.dec i ((key k).Q.row i), fun k j => C.nttP.dec j ((key k).P.row j)⟩

/-- `Σ_k key_k h_k` modulo `q_i`. -/
def accQ (C : Ctx) (L : ℕ) (h : ℕ → Nega C.N ℤ) (key : KeyVal C) (i : ℕ) :
    Nega C.N (ZMod (C.q i)) :=
  ∑ k ∈ range (C.beta L), key.Q k i * Nega.red (C.q i) (h k)
/-- `Σ_k key_k h_k` modulo `p_j`. -/
def accP (C : Ctx) (L : ℕ) (h : ℕ → Nega C.N ℤ) (key : KeyVal C) (j : ℕ) :
    Nega C.N (ZMod (C.p j)) :=
  ∑ k ∈ range (C.beta L), key.P k j * Nega.red (C.p j) (h k)

/-- Closed form of the external product at level `L` of the digits `h` with a key. -/
def ext (C : Ctx) (L : ℕ) (h : ℕ → Nega C.N ℤ) (key : KeyVal C) (i : ℕ) :
    Nega C.N (ZMod (C.q i)) :=
  modDown C (accQ C L h key) (accP C L h key) i

/-- A sum over the digits against the gadget selects the digit of the modulus. -/
theorem sum_gad (hC : C.Good) {L i : ℕ} (hi : i ≤ L)
    (f : ℕ → Nega C.N (ZMod (C.q i))) :
    ∑ k ∈ range (C.beta L), (gad C k i : Nega C.N (ZMod (C.q i))) * f k =
      (C.P : Nega C.N (ZMod (C.q i))) * f (i / C.alpha) := by
  rw [Finset.sum_eq_single (i / C.alpha)]
  · unfold gad; rw [if_pos rfl]
  · intro k _ hk
    unfold gad
    rw [if_neg (fun h => hk h.symm), Nat.cast_zero, zero_mul]
  · intro h
    exact absurd (mem_range.mpr (block_lt_beta hC.alpha_pos' hi)) h

/-- `h` are digits of `c` at level `L`: `h_k = c` modulo every prime of block `k` up to the
level. -/
def IsDigits (C : Ctx) (L : ℕ) (h : ℕ → Nega C.N ℤ) (c : (i : ℕ) → Nega C.N (ZMod (C.q i))) :
    Prop := ∀ i ≤ L, Nega.red (C.q i) (h (i / C.alpha)) = c i

theorem digit_isDigits (hC : C.Good) {L : ℕ} (hL : L < C.nQ)
    (c : (i : ℕ) → Nega C.N (ZMod (C.q i))) : IsDigits C L (digit C L c) c :=
  fun _ hi => digit_red hC hL hi c

theorem IsDigits.mono {L L' : ℕ} {h : ℕ → Nega C.N ℤ} {c : (i : ℕ) → Nega C.N (ZMod (C.q i))}
    (H : IsDigits C L h c) (hl : L' ≤ L) : IsDigits C L' h c := fun i hi => H i (hi.trans hl)

/-- External product with a switching key and with its common reference part: for any key
satisfying its defining equation, `Ext(c, key) + t·Ext(c, a) = c·m + W` with
`P·W = Σ_k h_k e_k - lift₁ - t·lift₂`. -/
theorem ext_pair (hC : C.Good) {key a : SwKey C} {t m : Nega C.N ℤ} {e : ℕ → Nega C.N ℤ}
    (hk : SwEq key a t m e) {L : ℕ} (hL : L < C.nQ) {h : ℕ → Nega C.N ℤ}
    {c : (i : ℕ) → Nega C.N (ZMod (C.q i))} (hh : IsDigits C L h c) :
    ∃ W : Nega C.N ℤ,
      (C.P : Nega C.N ℤ) * W = ∑ k ∈ range (C.beta L), h k * e k -
        (liftP C (accP C L h key.kv) + t * liftP C (accP C L h a.kv)) ∧
      ∀ i ≤ L, ext C L h key.kv i + Nega.red (C.q i) t * ext C L h a.kv i =
          c i * Nega.red (C.q i) m + Nega.red (C.q i) W := by
  have hβ := beta_le_betaMax (C := C) hL
  obtain ⟨W, hW, hE⟩ := modDown_sum hC (univ : Finset Bool) (fun b => if b then t else 1)
    (fun b => accQ C L h (if b then a.kv else key.kv))
    (fun b => accP C L h (if b then a.kv else key.kv))
    (fun i => c i * Nega.red (C.q i) m) (∑ k ∈ range (C.beta L), h k * e k) hL
    (fun i hi => by
      simp only [Fintype.sum_bool, if_true, Bool.false_eq_true, if_false, map_one, one_mul]
      have hg := sum_gad hC hi fun k => Nega.red (C.q i) m * Nega.red (C.q i) (h k)
      rw [hh i hi] at hg
      rw [mul_comm (c i), ← hg]
      unfold accQ
      rw [Finset.mul_sum, map_sum, ← Finset.sum_add_distrib, ← Finset.sum_add_distrib]
      refine Finset.sum_congr rfl fun k hk' => ?_
      have hkb : k < C.betaMax := lt_of_lt_of_le (mem_range.mp hk') hβ
      have hq := hk.q k hkb i (by omega)
      simp only [SwKey.kv]
      rw [hq, map_mul]
      ring)
    (fun j hj => by
      simp only [Fintype.sum_bool, if_true, Bool.false_eq_true, if_false, map_one, one_mul]
      unfold accP
      rw [Finset.mul_sum, map_sum, ← Finset.sum_add_distrib]
      refine Finset.sum_congr rfl fun k hk' => ?_
      have hkb : k < C.betaMax := lt_of_lt_of_le (mem_range.mp hk') hβ
      have hq := hk.p k hkb j hj
      simp only [SwKey.kv]
      rw [hq, map_mul]
      ring)
  refine ⟨W, ?_, fun i hi => ?_⟩
  · rw [hW]
    simp only [Fintype.sum_bool, if_true, Bool.false_eq_true, if_false, one_mul]
    ring
  · rw [← hE i hi]
    simp only [Fintype.sum_bool, if_true, Bool.false_eq_true, if_false, map_one, one_mul, ext]
    ring

/-- A bound on the digits at level `L`. -/
def digitBound (C : Ctx) (L : ℕ) (D : ℤ) : Prop :=
  ∀ k < C.beta L, (2 * blockProd C L k : ℤ) ≤ D

theorem digit_Bdd (hC : C.Good) (hF : C.Fits) {L : ℕ} {D : ℤ} (hD : digitBound C L D) {k : ℕ}
    (hk : k < C.beta L) (c : (i : ℕ) → Nega C.N (ZMod (C.q i))) : (digit C L c k).Bdd D :=
  fun x => (digit_bdd hC hF hk c x).le.trans (hD k hk)

/-- Noise of one external product, times `P`. -/
def extNoise (C : Ctx) (L : ℕ) (D T B : ℤ) : ℤ :=
  C.beta L * (C.N * (D * B)) + (2 * C.P + C.N * (T * (2 * C.P)))

theorem ext_pair_bdd (hC : C.Good) (hF : C.Fits) {key a : SwKey C} {t m : Nega C.N ℤ}
    {e : ℕ → Nega C.N ℤ} (hk : SwEq key a t m e) {L : ℕ} (hL : L < C.nQ) {D T B : ℤ}
    {h : ℕ → Nega C.N ℤ} {c : (i : ℕ) → Nega C.N (ZMod (C.q i))} (hh : IsDigits C L h c)
    (hD : ∀ k < C.beta L, (h k).Bdd D) (ht : t.Bdd T) (he : ∀ k < C.beta L, (e k).Bdd B) :
    ∃ W : Nega C.N ℤ, ((C.P : Nega C.N ℤ) * W).Bdd (extNoise C L D T B) ∧
      ∀ i ≤ L, ext C L h key.kv i + Nega.red (C.q i) t * ext C L h a.kv i =
          c i * Nega.red (C.q i) m + Nega.red (C.q i) W := by
  obtain ⟨W, hW, hE⟩ := ext_pair hC hk hL hh
  refine ⟨W, ?_, hE⟩
  rw [hW]
  refine Nega.Bdd.sub ?_ (Nega.Bdd.add (liftP_bdd hC hF _) (ht.mul (liftP_bdd hC hF _)))
  refine (Nega.Bdd.sum _ _ (fun _ => (C.N : ℤ) * (D * B)) fun k hk' =>
    (hD k (mem_range.mp hk')).mul (he k (mem_range.mp hk'))).mono ?_
  rw [Finset.sum_const, card_range, nsmul_eq_mul]

/-! ## Congruence: only the existing rows matter -/

theorem liftY_congr {M : ℕ → ℕ} {len : ℕ} {x x' : (i : ℕ) → ZMod (M i)} {i : ℕ}
    (h : x i = x' i) : liftY M len x i = liftY M len x' i := by unfold liftY; rw [h]

theorem baseLift_congr (fv : List (ℕ × ℕ) → ℕ) {M : ℕ → ℕ} {len : ℕ}
    {x x' : (i : ℕ) → ZMod (M i)} (h : ∀ i < len, x i = x' i) :
    baseLift fv M len x = baseLift fv M len x' := by
  unfold baseLift
  have h1 : liftList M len x = liftList M len x' := by
    unfold liftList
    refine List.map_congr_left fun i hi => ?_
    rw [liftY_congr (h i (List.mem_range.mp hi))]
  rw [h1]
  congr 1
  refine Finset.sum_congr rfl fun i hi => ?_
  rw [liftY_congr (h i (mem_range.mp hi))]

theorem digit_congr (ha : 0 < C.alpha) {L k : ℕ} (hk : k < C.beta L)
    {c c' : (i : ℕ) → Nega C.N (ZMod (C.q i))} (h : ∀ i ≤ L, c i = c' i) :
    digit C L c k = digit C L c' k := by
  obtain ⟨h0, h1, h2⟩ := blockLen_spec ha hk
  have h3 : ∀ i < blockLen C L k, c (C.alpha * k + i) = c' (C.alpha * k + i) :=
    fun i hi => h _ ((h2 i).mpr hi).1
  ext x
  unfold digit
  dsimp only
  rw [show c (C.alpha * k) = c' (C.alpha * k) from h3 0 h0]
  split
  · rfl
  · exact baseLift_congr C.fv (M := blockMod C k) fun i hi => by
      show (c (C.alpha * k + i)).coeff x = (c' (C.alpha * k + i)).coeff x
      rw [h3 i hi]

theorem liftP_congr {x x' : (j : ℕ) → Nega C.N (ZMod (C.p j))} (h : ∀ j < C.nP, x j = x' j) :
    liftP C x = liftP C x' := by
  ext n
  exact baseLift_congr C.fv (M := C.p) fun j hj => by
    show (x j).coeff n = (x' j).coeff n
    rw [h j hj]

theorem modDown_congr {xQ xQ' : (i : ℕ) → Nega C.N (ZMod (C.q i))}
    {xP xP' : (j : ℕ) → Nega C.N (ZMod (C.p j))} {i : ℕ} (hq : xQ i = xQ' i)
    (hp : ∀ j < C.nP, xP j = xP' j) : modDown C xQ xP i = modDown C xQ' xP' i := by
  unfold modDown; rw [hq, liftP_congr hp]

/-- Two keys agree on what an external product at level `L` reads. -/
structure KeyVal.Agree (L : ℕ) (a b : KeyVal C) : Prop where
  q : ∀ k < C.beta L, ∀ i ≤ L, a.Q k i = b.Q k i
  p : ∀ k < C.beta L, ∀ j < C.nP, a.P k j = b.P k j

theorem ext_congr {L : ℕ} {h h' : ℕ → Nega C.N ℤ} {a b : KeyVal C}
    (hh : ∀ k < C.beta L, h k = h' k) (hab : a.Agree L b) {i : ℕ} (hi : i ≤ L) :
    ext C L h a i = ext C L h' b i := by
  unfold ext
  refine modDown_congr ?_ fun j hj => ?_
  · unfold accQ
    refine Finset.sum_congr rfl fun k hk => ?_
    rw [hh k (mem_range.mp hk), hab.q k (mem_range.mp hk) i hi]
  · unfold accP
    refine Finset.sum_congr rfl fun k hk => ?_
    rw [hh k (mem_range.mp hk), hab.p k (mem_range.mp hk) j hj]

theorem KeyVal.Agree.refl (L : ℕ) (a : KeyVal C) : a.Agree L a := ⟨fun _ _ _ _ => rfl,
  fun _ _ _ _ => rfl⟩

end MK
