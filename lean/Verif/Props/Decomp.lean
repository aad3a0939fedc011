import Verif.Props.ModUp

/-!
# Properties of the decomposer (C47)
-/

namespace MK.Word

open Finset

variable {F : Fl} {Q P : List ℕ}

/-- The number of primes of block `beta` present at level `levelQ`. -/
def blockSize (levelQ alpha beta : ℕ) : ℕ := min alpha (levelQ + 1 - alpha * beta)

/-- The primes of block `beta` present at level `levelQ`. -/
def blockPrimes (Q : List ℕ) (levelQ alpha beta : ℕ) : List ℕ :=
  (Q.drop (alpha * beta)).take (blockSize levelQ alpha beta)

theorem decompLvl_eq {levelQ alpha beta : ℕ} (ha : 0 < alpha) (hb : alpha * beta ≤ levelQ) :
    (if levelQ > alpha * (beta + 1) - 1 then (alpha : ℤ) - 2 else ((levelQ % alpha : ℕ) : ℤ) - 1) =
      (blockSize levelQ alpha beta : ℤ) - 2 := by
  unfold blockSize
  have e : alpha * (beta + 1) = alpha * beta + alpha := by ring
  split
  · rename_i h
    rw [min_eq_left (by omega)]
  · rename_i h
    have hm : levelQ % alpha = levelQ - alpha * beta := by
      have : levelQ / alpha = beta :=
        Nat.div_eq_of_lt_le (by rw [Nat.mul_comm]; exact hb) (by rw [Nat.mul_comm]; omega)
      have := Nat.div_add_mod levelQ alpha
      rw [‹levelQ / alpha = beta›] at this
      omega
    rw [hm, min_eq_right (by omega)]
    omega

theorem blockPrimes_length {levelQ alpha beta : ℕ} (hlQ : levelQ < Q.length) :
    (blockPrimes Q levelQ alpha beta).length = blockSize levelQ alpha beta := by
  unfold blockPrimes blockSize
  rw [List.length_take, List.length_drop]
  omega

theorem fam_blockPrimes {levelQ alpha beta i : ℕ} (hi : i < blockSize levelQ alpha beta) :
    fam (blockPrimes Q levelQ alpha beta) i = fam Q (alpha * beta + i) := by
  unfold blockPrimes fam
  rw [List.getD_eq_getElem?_getD, List.getD_eq_getElem?_getD, List.getElem?_take_of_lt hi,
    List.getElem?_drop]

theorem blockPrimes_mem (hQ : ∀ q ∈ Q, Modulus q) (levelQ alpha beta : ℕ) :
    ∀ q ∈ blockPrimes Q levelQ alpha beta, Modulus q :=
  fun q h => hQ q (List.mem_of_mem_drop (List.mem_of_mem_take h))

theorem blockPrimes_nodup (hn : Q.Nodup) (levelQ alpha beta : ℕ) :
    (blockPrimes Q levelQ alpha beta).Nodup :=
  hn.sublist ((List.take_sublist _ _).trans (List.drop_sublist _ _))

/-- The block of the table equals the primes of the block. -/
theorem blockPrimes_eq_map {levelQ alpha beta : ℕ} (hlQ : levelQ < Q.length) :
    (List.range (blockSize levelQ alpha beta)).map (fun k => Q.getD (beta * alpha + k) 0) =
      blockPrimes Q levelQ alpha beta := by
  refine List.ext_getElem (by simp [blockPrimes_length hlQ]) fun i h1 h2 => ?_
  have hi : i < blockSize levelQ alpha beta := by simpa using h1
  have hq : alpha * beta + i < Q.length := by unfold blockSize at hi; omega
  simp only [List.getElem_map, List.getElem_range]
  rw [Nat.mul_comm beta, getD_eq_fam hq, ← fam_blockPrimes hi, fam_of_lt h2]

theorem ceilDiv_mul {a b : ℕ} (hb : 0 < b) : ceilDiv (b * a) b = a := by
  unfold ceilDiv
  rw [show b * a + b - 1 = (b - 1) + b * a by omega, Nat.add_mul_div_left _ _ hb,
    Nat.div_eq_of_lt (by omega), zero_add]

/-- **C47**, table: for `levelQ` and digit `beta` with at least two primes, the entry
`modUpParams[gamma*alpha-2][beta][decompLvl]` exists and was generated for exactly the primes of
block `beta` up to `levelQ`, with all ordinary primes and the first `gamma*alpha` special primes
as targets. -/
theorem C47_table {levelQ alpha beta gamma : ℕ} (hlQ : levelQ < Q.length) (hg : 0 < gamma)
    (hgP : gamma * alpha ≤ P.length) (hb : alpha * beta ≤ levelQ)
    (h2 : 2 ≤ blockSize levelQ alpha beta) :
    ∃ t1 t2, (newDecomposer Q P gamma)[gamma * alpha - 2]? = some t1 ∧ t1[beta]? = some t2 ∧
      t2[blockSize levelQ alpha beta - 2]? =
        some (basisextenderparameters (blockPrimes Q levelQ alpha beta)
          (Q ++ P.take (gamma * alpha))) := by
  have hs := h2
  unfold blockSize at hs
  have ha : 2 ≤ alpha := by omega
  have hga : alpha ≤ gamma * alpha := Nat.le_mul_of_pos_left _ hg
  have hlen : (P.take (gamma * alpha - 2 + 2)).length = gamma * alpha := by
    rw [List.length_take]; omega
  have hal : ceilDiv (P.take (gamma * alpha - 2 + 2)).length gamma = alpha := by
    rw [hlen, ceilDiv_mul hg]
  have hbeta : beta < ceilDiv Q.length alpha := by
    unfold ceilDiv
    rw [Nat.lt_iff_add_one_le, Nat.le_div_iff_mul_le (by omega)]
    rw [Nat.add_mul, Nat.mul_comm]
    omega
  have hx : blockSize levelQ alpha beta ≤ xalpha Q.length alpha beta := by
    unfold xalpha blockSize
    split
    · rename_i h
      obtain ⟨h1, h3⟩ := h
      have hd := Nat.div_add_mod Q.length alpha
      have hmod := Nat.mod_lt Q.length (show 0 < alpha by omega)
      have : Q.length / alpha = beta := by
        unfold ceilDiv at h1
        have : (Q.length + alpha - 1) / alpha = Q.length / alpha + 1 := by
          rw [show Q.length + alpha - 1 = (Q.length - 1) + alpha by omega,
            Nat.add_div_right _ (by omega)]
          congr 1
          rw [Nat.div_eq_iff (by omega), Nat.mul_comm]
          generalize alpha * (Q.length / alpha) = z at *
          omega
        omega
      rw [this] at hd
      omega
    · exact min_le_left _ _
  refine ⟨(List.range (ceilDiv Q.length (ceilDiv (P.take (gamma * alpha - 2 + 2)).length gamma))).map
      fun i => (List.range (xalpha Q.length (ceilDiv (P.take (gamma * alpha - 2 + 2)).length gamma) i - 1)).map
      fun j => basisextenderparameters ((List.range (j + 2)).map fun k =>
        Q.getD (i * ceilDiv (P.take (gamma * alpha - 2 + 2)).length gamma + k) 0)
        (Q ++ P.take (gamma * alpha - 2 + 2)),
    (List.range (xalpha Q.length alpha beta - 1)).map fun j =>
      basisextenderparameters ((List.range (j + 2)).map fun k => Q.getD (beta * alpha + k) 0)
        (Q ++ P.take (gamma * alpha - 2 + 2)), ?_, ?_, ?_⟩
  · unfold newDecomposer
    rw [List.getElem?_map, List.getElem?_range (by omega)]
    rfl
  · rw [hal, List.getElem?_map, List.getElem?_range hbeta]
    rfl
  · rw [List.getElem?_map, List.getElem?_range (by omega)]
    have e : blockSize levelQ alpha beta - 2 + 2 = blockSize levelQ alpha beta := by omega
    have e2 : gamma * alpha - 2 + 2 = gamma * alpha := by omega
    simp only [Option.map_some, e, e2]
    rw [blockPrimes_eq_map hlQ]

theorem forEach_map {α β σ : Type _} (l : List α) (f : α → β) (body : β → σ → Go σ) (s : σ) :
    forEach (l.map f) body s = forEach l (fun a => body (f a)) s := by
  induction l generalizing s with
  | nil => rfl
  | cons a l ih =>
    simp only [List.map_cons, forEach]
    cases body (f a) s with
    | error e => rfl
    | ok s' => simp only [Go.ok_bind]; exact ih s'

/-- A loop over `a … a+n-1` whose iteration `i` replaces entry `i`. -/
theorem forEach_set_from {a n : ℕ} {body : ℕ → List ℕ → Go (List ℕ)} {P : ℕ → ℕ → Prop} {l : List ℕ}
    (step : ∀ i l', a ≤ i → i < a + n → l'.length = l.length →
      ∃ r, body i l' = .ok (l'.set i r) ∧ P i r) (hl : a + n ≤ l.length) :
    ∃ l', forEach ((List.range n).map (a + ·)) body l = .ok l' ∧ l'.length = l.length ∧
      (∀ i, a ≤ i → i < a + n → ∃ r, l'[i]? = some r ∧ P i r) ∧
      ∀ i, i < a ∨ a + n ≤ i → l'[i]? = l[i]? := by
  rw [forEach_map]
  obtain ⟨l', e, h1, h2, h3⟩ := forEach_range n (fun k => body (a + k)) (fun k l' => l'.length = l.length ∧
    (∀ i, a ≤ i → i < a + k → ∃ r, l'[i]? = some r ∧ P i r) ∧
    ∀ i, i < a ∨ a + k ≤ i → l'[i]? = l[i]?) l
    ⟨rfl, by omega, fun i _ => rfl⟩ (by
      rintro i l1 hi ⟨a1, a2, a3⟩
      obtain ⟨r, e, hr⟩ := step (a + i) l1 (by omega) (by omega) a1
      refine ⟨_, e, by rw [List.length_set, a1], fun k hk hk2 => ?_, fun k hk => ?_⟩
      · by_cases h : k = a + i
        · subst h
          exact ⟨r, by rw [List.getElem?_set_self (by omega)], hr⟩
        · rw [List.getElem?_set_ne (by omega)]; exact a2 k hk (by omega)
      · rw [List.getElem?_set_ne (by omega)]; exact a3 k (by omega))
  exact ⟨l', e, h1, h2, h3⟩

/-- The reconstruction loop of the decomposer. -/
theorem decomp_recon {levelQ alpha beta : ℕ} (hQ : ∀ q ∈ Q, Modulus q) (hn : Q.Nodup)
    (hlQ : levelQ < Q.length) {T p0Q p1Q y : List ℕ}
    {x : ℕ → ℕ} (hp0 : ∀ i < blockSize levelQ alpha beta, p0Q[alpha * beta + i]? = some (x i))
    (hx : ∀ i < blockSize levelQ alpha beta, x i < montR) (hp1 : levelQ < p1Q.length)
    (hy : blockSize levelQ alpha beta ≤ y.length) :
    let S := blockPrimes Q levelQ alpha beta
    ∃ st : List ℕ × List ℕ × ℚ, forEach (List.range (blockSize levelQ alpha beta))
        (decompStep F p0Q Q (basisextenderparameters S T).qoverqiinvqi (beta * alpha)) (p1Q, y, 0) =
        .ok st ∧ st.1.length = p1Q.length ∧ (∀ k, levelQ < k → st.1[k]? = p1Q[k]?) ∧
      (∀ i < S.length, st.2.1[i]? = some (liftY (fam S) S.length (fun i => (x i : ZMod _)) i)) ∧
      ⌊st.2.2⌋₊ = fquot F (liftList (fam S) S.length fun i => (x i : ZMod _)) := by
  intro S
  have hSl : S.length = blockSize levelQ alpha beta := blockPrimes_length hlQ
  have hSM : ∀ q ∈ S, Modulus q := blockPrimes_mem hQ levelQ alpha beta
  have hSn : S.Nodup := blockPrimes_nodup hn levelQ alpha beta
  have hbs : ∀ i < blockSize levelQ alpha beta, alpha * beta + i ≤ levelQ := by
    intro i hi; unfold blockSize at hi; omega
  rw [← hSl] at hp0 hx hy hbs ⊢
  obtain ⟨st, h1, h2, h3, h4, h5, h6⟩ := forEach_range S.length
    (decompStep F p0Q Q (basisextenderparameters S T).qoverqiinvqi (beta * alpha))
    (fun i st => st.1.length = p1Q.length ∧ st.2.1.length = y.length ∧
      (∀ k, levelQ < k → st.1[k]? = p1Q[k]?) ∧
      (∀ k < i, st.2.1[k]? = some (liftY (fam S) S.length (fun i => (x i : ZMod _)) k)) ∧
      st.2.2 = (List.range i).foldl (fun vi i => fstep F vi
        (liftY (fam S) S.length (fun i => (x i : ZMod _)) i) (fam S i)) 0) (p1Q, y, 0)
    ⟨rfl, rfl, fun _ _ => rfl, by omega, rfl⟩ (by
      rintro i ⟨p', y', v⟩ hi ⟨i1, i2, i3, i4, i5⟩
      dsimp only at i1 i2 i3 i4 i5
      obtain ⟨c, c1, c2⟩ := liftY_word (P := T) hSM hSn hi x (hx i hi)
      have hqi : Q[beta * alpha + i]? = some (fam S i) := by
        have := hbs i hi
        rw [Nat.mul_comm beta, get?_fam (by omega), fam_blockPrimes (by omega)]
      have hpi : p0Q[beta * alpha + i]? = some (x i) := by rw [Nat.mul_comm beta]; exact hp0 i hi
      refine ⟨(p'.set (beta * alpha + i) (x i), y'.set i (liftY (fam S) S.length (fun i => (x i : ZMod _)) i),
        fstep F v (liftY (fam S) S.length (fun i => (x i : ZMod _)) i) (fam S i)), ?_, ?_, ?_, ?_, ?_, ?_⟩
      · have hle := hbs i hi
        rw [Nat.mul_comm] at hle
        simp only [decompStep, idx_of_get? c1, idx_of_get? hqi, idx_of_get? hpi, Go.ok_bind, c2,
          upd_of_lt (show beta * alpha + i < p'.length by omega),
          upd_of_lt (show i < y'.length by omega)]
        rfl
      · simpa using i1
      · simpa using i2
      · intro k hk
        have hle := hbs i hi
        rw [Nat.mul_comm] at hle
        dsimp only
        rw [List.getElem?_set_ne (by omega)]; exact i3 k hk
      · intro k hk
        dsimp only
        rcases Nat.lt_succ_iff_lt_or_eq.mp hk with h | rfl
        · rw [List.getElem?_set_ne (by omega)]; exact i4 k h
        · rw [List.getElem?_set_self (by omega)]
      · dsimp only
        rw [foldl_range_succ, ← i5])
  refine ⟨st, h1, h2, h4, h5, ?_⟩
  rw [h6, fquot_liftList]

/-- One output row of the decomposer. -/
theorem decompOut_spec (hF : F.Ok) {S T M : List ℕ} (hS : ∀ q ∈ S, Modulus q)
    (hT : ∀ p ∈ T, Modulus p) (h32 : S.length ≤ 32) (x : (i : ℕ) → ZMod (fam S i)) {y : List ℕ}
    (hy : ∀ i < S.length, y[i]? = some (liftY (fam S) S.length x i)) {off j m : ℕ}
    (hj : off + j < T.length) (hm : M[j]? = some m) (hTm : fam T (off + j) = m)
    {out : List ℕ} (ho : j < out.length) :
    ∃ r, decompOut (fquot F (liftList (fam S) S.length x)) y S.length M
        (basisextenderparameters S T) off j out = .ok (out.set j r) ∧
      ((r : ℤ) ≡ baseLift (fquot F) (fam S) S.length x [ZMOD m] ∧ r < 6 * m ∧
        (S.sum ≤ 2 ^ 64 → r < 3 * m)) := by
  obtain ⟨vt, w, r, t1, t2, t3, t4, t5⟩ := target_spec hF hS hT h32 x hy hj
  rw [hTm] at t3 t4 t5
  refine ⟨r, ?_, ?_, t5⟩
  · simp only [decompOut, idx_of_get? hm, idx_of_get? t1, idx_of_get? t2, t3, Go.ok_bind,
      upd_of_lt ho]
  · rw [modEq_iff_cast, Int.cast_natCast]
    exact t4

/-- The rows of the ordinary primes. -/
theorem decomp_rowsQ (hF : F.Ok) (hQ : ∀ q ∈ Q, Modulus q) {S P' : List ℕ} (hS : ∀ q ∈ S, Modulus q)
    (hP' : ∀ p ∈ P', Modulus p) (h32 : S.length ≤ 32) (x : (i : ℕ) → ZMod (fam S i)) {y : List ℕ}
    (hy : ∀ i < S.length, y[i]? = some (liftY (fam S) S.length x i)) {levelQ a : ℕ}
    (hlQ : levelQ < Q.length) (ha : a ≤ levelQ) {l : List ℕ} (hl : levelQ < l.length) :
    ∃ l1 l2, forEach (List.range a) (decompOut (fquot F (liftList (fam S) S.length x)) y S.length Q
        (basisextenderparameters S (Q ++ P')) 0) l = .ok l1 ∧
      forEach ((List.range (levelQ + 1 - a)).map (a + ·))
        (decompOut (fquot F (liftList (fam S) S.length x)) y S.length Q
        (basisextenderparameters S (Q ++ P')) 0) l1 = .ok l2 ∧ l2.length = l.length ∧
      (∀ j ≤ levelQ, ∃ r : ℕ, l2[j]? = some r ∧
        ((r : ℤ) ≡ baseLift (fquot F) (fam S) S.length x [ZMOD fam Q j] ∧ r < 6 * fam Q j ∧
        (S.sum ≤ 2 ^ 64 → r < 3 * fam Q j))) ∧ ∀ j, levelQ < j → l2[j]? = l[j]? := by
  have hT : ∀ q ∈ Q ++ P', Modulus q := by
    intro q hq
    rcases List.mem_append.mp hq with h | h
    · exact hQ q h
    · exact hP' q h
  have hTQ : ∀ j < Q.length, fam (Q ++ P') j = fam Q j := by
    intro j hj
    unfold fam
    rw [List.getD_eq_getElem?_getD, List.getD_eq_getElem?_getD, List.getElem?_append_left hj]
  have step : ∀ j l', j ≤ levelQ → l'.length = l.length → ∃ r,
      decompOut (fquot F (liftList (fam S) S.length x)) y S.length Q
        (basisextenderparameters S (Q ++ P')) 0 j l' = .ok (l'.set j r) ∧
      ((r : ℤ) ≡ baseLift (fquot F) (fam S) S.length x [ZMOD fam Q j] ∧ r < 6 * fam Q j ∧
        (S.sum ≤ 2 ^ 64 → r < 3 * fam Q j)) := fun j l' hj hl' =>
    decompOut_spec hF hS hT h32 x hy (by rw [List.length_append]; omega) (get?_fam (by omega))
      (by rw [Nat.zero_add]; exact hTQ j (by omega)) (by omega)
  obtain ⟨l1, a1, a2, a3, a4⟩ := forEach_set (n := a) (l := l) (by omega)
    (fun j l' hj hl' => step j l' (by omega) hl')
  obtain ⟨l2, b1, b2, b3, b4⟩ := forEach_set_from (a := a) (n := levelQ + 1 - a) (l := l1)
    (fun j l' _ hj hl' => step j l' (by omega) (by omega)) (by omega)
  refine ⟨l1, l2, a1, b1, by omega, fun j hj => ?_, fun j hj => ?_⟩
  · by_cases hjb : j < a
    · rw [b4 j (Or.inl hjb)]; exact a3 j hjb
    · exact b3 j (by omega) (by omega)
  · rw [b4 j (Or.inr (by omega)), a4 j (by omega)]

/-- One row of a special prime. -/
theorem decomp_rowP (hF : F.Ok) (hQ : ∀ q ∈ Q, Modulus q) {S : List ℕ} (hS : ∀ q ∈ S, Modulus q)
    (hP : ∀ p ∈ P, Modulus p) (h32 : S.length ≤ 32) (x : (i : ℕ) → ZMod (fam S i)) {y : List ℕ}
    (hy : ∀ i < S.length, y[i]? = some (liftY (fam S) S.length x i)) {n j : ℕ} (hn : n ≤ P.length)
    (hj : j < n) {l : List ℕ} (hl : j < l.length) :
    ∃ r, decompOut (fquot F (liftList (fam S) S.length x)) y S.length P
        (basisextenderparameters S (Q ++ P.take n)) Q.length j l = .ok (l.set j r) ∧
      ((r : ℤ) ≡ baseLift (fquot F) (fam S) S.length x [ZMOD fam P j] ∧ r < 6 * fam P j ∧
        (S.sum ≤ 2 ^ 64 → r < 3 * fam P j)) := by
  have hT : ∀ q ∈ Q ++ P.take n, Modulus q := by
    intro q hq
    rcases List.mem_append.mp hq with h | h
    · exact hQ q h
    · exact hP q (List.mem_of_mem_take h)
  refine decompOut_spec hF hS hT h32 x hy ?_ (get?_fam (by omega)) ?_ hl
  · rw [List.length_append, List.length_take]; omega
  · unfold fam
    rw [List.getD_eq_getElem?_getD, List.getD_eq_getElem?_getD,
      List.getElem?_append_right (by omega), List.getElem?_take_of_lt (by omega)]
    congr 2
    omega

/-- A loop writing the same word. -/
theorem forEach_fill {n x : ℕ} {l : List ℕ} (hl : n ≤ l.length) :
    ∃ l', forEach (List.range n) (fun j q => upd q j x) l = .ok l' ∧ l'.length = l.length ∧
      (∀ i < n, l'[i]? = some x) ∧ ∀ i, n ≤ i → l'[i]? = l[i]? := by
  obtain ⟨l', e, h1, h2, h3⟩ := forEach_set (n := n) (body := fun j q => upd q j x)
    (P := fun _ r => r = x) (l := l) hl (fun i l' hi hl' => ⟨x, upd_of_lt (by omega) x, rfl⟩)
  refine ⟨l', e, h1, fun i hi => ?_, h3⟩
  obtain ⟨r, r1, r2⟩ := h2 i hi
  rw [r1, r2]

/-- The digit computed by `DecomposeAndSplit`, as an integer: the word itself for a block of one
prime, and otherwise the base-converted integer of the block. -/
noncomputable def wordDigit (F : Fl) (Q : List ℕ) (levelQ alpha beta : ℕ) (x : ℕ → ℕ) : ℤ :=
  if blockSize levelQ alpha beta = 1 then x (alpha * beta)
  else baseLift (fquot F) (fam (blockPrimes Q levelQ alpha beta)) (blockPrimes Q levelQ alpha beta).length
    fun i => (x (alpha * beta + i) : ZMod _)

/-- **C47.** `DecomposeAndSplit` with the table of `NewDecomposer`: for a positive `alpha` of at
most 32, levels in range with `levelP < gamma*alpha ≤ PCount`, and a digit `beta` whose block
begins at or below `levelQ`, no table, array or row index is out of range, and every output row
`j ≤ levelQ` (`j ≤ levelP`) is congruent modulo `q_j` (`p_j`) to one and the same integer, the
digit; the rows above the levels are not written. -/
theorem C47_DecomposeAndSplit (hF : F.Ok) (hQ : ∀ q ∈ Q, Modulus q) (hn : Q.Nodup)
    (hP : ∀ p ∈ P, Modulus p) {levelQ levelP alpha beta gamma : ℕ} (ha : 0 < alpha)
    (h32 : alpha ≤ 32) (hg : 0 < gamma) (hlQ : levelQ < Q.length) (hlP : levelP < gamma * alpha)
    (hgP : gamma * alpha ≤ P.length) (hb : alpha * beta ≤ levelQ) {y p0Q p1Q p1P : List ℕ}
    (hy : y.length = 32) {x : ℕ → ℕ} (hp0 : ∀ i ≤ levelQ, p0Q[i]? = some (x i))
    (hx : ∀ i ≤ levelQ, x i < 2 ^ 64) (hp1Q : levelQ < p1Q.length) (hp1P : levelP < p1P.length) :
    ∃ outQ outP, DecomposeAndSplit F (newDecomposer Q P gamma) Q P levelQ levelP alpha beta gamma
        y p0Q p1Q p1P = .ok (outQ, outP) ∧
      outQ.length = p1Q.length ∧ outP.length = p1P.length ∧
      (∀ j q, j ≤ levelQ → Q[j]? = some q → ∃ w, outQ[j]? = some w ∧
        (w : ℤ) ≡ wordDigit F Q levelQ alpha beta x [ZMOD q] ∧
        (blockSize levelQ alpha beta ≠ 1 → w < 6 * q)) ∧
      (∀ j p, j ≤ levelP → P[j]? = some p → ∃ w, outP[j]? = some w ∧
        (w : ℤ) ≡ wordDigit F Q levelQ alpha beta x [ZMOD p] ∧
        (blockSize levelQ alpha beta ≠ 1 → w < 6 * p)) ∧
      (∀ j, levelQ < j → outQ[j]? = p1Q[j]?) ∧ ∀ j, levelP < j → outP[j]? = p1P[j]? := by
  have hbs1 : 1 ≤ blockSize levelQ alpha beta := by unfold blockSize; omega
  unfold DecomposeAndSplit
  rw [if_neg (by omega)]
  simp only [decompLvl_eq ha hb]
  by_cases h1 : blockSize levelQ alpha beta = 1
  · have hc : beta * alpha = alpha * beta := Nat.mul_comm _ _
    obtain ⟨lq, q1, q2, q3, q4⟩ := forEach_fill (n := levelQ + 1) (x := x (alpha * beta)) (l := p1Q) hp1Q
    obtain ⟨lp, p1, p2, p3, p4⟩ := forEach_fill (n := levelP + 1) (x := x (alpha * beta)) (l := p1P) hp1P
    refine ⟨lq, lp, ?_, q2, p2, ?_, ?_, fun j hj => q4 j hj, fun j hj => p4 j hj⟩
    · simp only [h1]
      rw [if_pos (by norm_num)]
      simp only [hc, idx_of_get? (hp0 _ hb), Go.ok_bind, Go.pure_eq, q1, p1]
    · intro j q hj _
      refine ⟨_, q3 j (by omega), ?_, fun h => absurd h1 h⟩
      unfold wordDigit
      rw [if_pos h1]
    · intro j q hj _
      refine ⟨_, p3 j (by omega), ?_, fun h => absurd h1 h⟩
      unfold wordDigit
      rw [if_pos h1]
  · have h2 : 2 ≤ blockSize levelQ alpha beta := by omega
    obtain ⟨t1, t2, e1, e2, e3⟩ := C47_table hlQ hg hgP hb h2
    have hbs : ∀ i < blockSize levelQ alpha beta, alpha * beta + i ≤ levelQ := by
      intro i hi; unfold blockSize at hi; omega
    have hbl : blockSize levelQ alpha beta ≤ alpha := min_le_left _ _
    obtain ⟨st, s1, s2, s3, s4, s5⟩ := decomp_recon (F := F) (levelQ := levelQ) (alpha := alpha)
      (beta := beta) (T := Q ++ P.take (gamma * alpha)) (p0Q := p0Q) (p1Q := p1Q) (y := y)
      (x := fun i => x (alpha * beta + i)) hQ hn hlQ (fun i hi => hp0 _ (hbs i hi))
      (fun i hi => hx _ (hbs i hi)) hp1Q (by omega)
    set S := blockPrimes Q levelQ alpha beta with hS
    have hSl : S.length = blockSize levelQ alpha beta := blockPrimes_length hlQ
    have hSM : ∀ q ∈ S, Modulus q := blockPrimes_mem hQ levelQ alpha beta
    obtain ⟨l1, l2, a1, b1, b2, b3, b4⟩ := decomp_rowsQ hF hQ (P' := P.take (gamma * alpha)) hSM
      (take_mem hP _) (by omega) (fun i => (x (alpha * beta + i) : ZMod (fam S i))) s4 hlQ hb
      (l := st.1) (by omega)
    obtain ⟨l3, c1, c2, c3, c4⟩ := forEach_set (n := levelP + 1) (l := p1P) hp1P
      (fun j l' hj hl' => decomp_rowP hF hQ hSM hP (by omega)
        (fun i => (x (alpha * beta + i) : ZMod (fam S i))) s4 hgP (j := j) (l := l') (by omega) (by omega))
    have hwd : wordDigit F Q levelQ alpha beta x = baseLift (fquot F) (fam S) S.length
        (fun i => (x (alpha * beta + i) : ZMod _)) := by
      unfold wordDigit
      rw [if_neg h1]
    refine ⟨l2, l3, ?_, by omega, c2, ?_, ?_, ?_, fun j hj => c4 j hj⟩
    · rw [if_neg (by omega)]
      have n1 : ((blockSize levelQ alpha beta : ℤ) - 2 + 2).toNat = blockSize levelQ alpha beta := by omega
      have n2 : ((blockSize levelQ alpha beta : ℤ) - 2).toNat = blockSize levelQ alpha beta - 2 := by omega
      rw [Nat.mul_comm beta alpha] at s1
      simp only [idx_of_get? e1, idx_of_get? e2, n2, idx_of_get? e3, Go.ok_bind, n1, s1, s5,
        Nat.mul_comm beta alpha]
      rw [← hSl, a1]
      simp only [Go.ok_bind, b1, c1]
      rfl
    · intro j q hj hq
      rw [get?_fam (by omega)] at hq
      rw [← Option.some.inj hq, hwd]
      obtain ⟨r, r1, r2, r3, _⟩ := b3 j hj
      exact ⟨r, r1, r2, fun _ => r3⟩
    · intro j p hj hp
      rw [get?_fam (by omega)] at hp
      rw [← Option.some.inj hp, hwd]
      obtain ⟨r, r1, r2, r3, _⟩ := c3 j (by omega)
      exact ⟨r, r1, r2, fun _ => r3⟩
    · intro j hj
      rw [b4 j hj, s3 j hj]

/-- **C47**, the digit: it is congruent to the residues of its block, and within one multiple of
the block's product of the representative in `[0, product)`. -/
theorem C47_digit (hF : F.Ok) (hQ : ∀ q ∈ Q, Modulus q) (hn : Q.Nodup)
    {levelQ alpha beta : ℕ} (ha : 0 < alpha) (h32 : alpha ≤ 32) (hlQ : levelQ < Q.length)
    (hb : alpha * beta ≤ levelQ) {x : ℕ → ℕ} (hx : ∀ i ≤ levelQ, x i < fam Q i) :
    (∀ i q, alpha * beta ≤ i → i < alpha * (beta + 1) → i ≤ levelQ → Q[i]? = some q →
      wordDigit F Q levelQ alpha beta x ≡ x i [ZMOD q]) ∧
    |wordDigit F Q levelQ alpha beta x| < 2 * ((blockPrimes Q levelQ alpha beta).prod : ℕ) ∧
    ∃ d : ℤ, |d| ≤ 1 ∧
      0 ≤ wordDigit F Q levelQ alpha beta x + d * ((blockPrimes Q levelQ alpha beta).prod : ℕ) ∧
      wordDigit F Q levelQ alpha beta x + d * ((blockPrimes Q levelQ alpha beta).prod : ℕ) <
        ((blockPrimes Q levelQ alpha beta).prod : ℕ) := by
  have hSl : (blockPrimes Q levelQ alpha beta).length = blockSize levelQ alpha beta := blockPrimes_length hlQ
  have hSM := blockPrimes_mem hQ levelQ alpha beta
  have hSn := blockPrimes_nodup hn levelQ alpha beta
  have e : alpha * (beta + 1) = alpha * beta + alpha := by ring
  have hbs : ∀ i < blockSize levelQ alpha beta, alpha * beta + i ≤ levelQ := by
    intro i hi; unfold blockSize at hi; omega
  by_cases h1 : blockSize levelQ alpha beta = 1
  · have hwd : wordDigit F Q levelQ alpha beta x = x (alpha * beta) := by
      unfold wordDigit; rw [if_pos h1]
    have hprod : (blockPrimes Q levelQ alpha beta).prod = fam Q (alpha * beta) := by
      rw [prod_eq_baseProd, hSl, h1, baseProd, Finset.prod_range_one, fam_blockPrimes (by omega)]
      rfl
    rw [hwd, hprod]
    have hxx := hx _ hb
    refine ⟨fun i q h2 h3 h4 hq => ?_, ?_, 0, by norm_num, by omega, by omega⟩
    · have : i = alpha * beta := by unfold blockSize at h1; omega
      rw [this]
    · rw [abs_of_nonneg (by omega)]; omega
  · have hwd : wordDigit F Q levelQ alpha beta x = baseLift (fquot F) (fam (blockPrimes Q levelQ alpha beta))
        (blockPrimes Q levelQ alpha beta).length (fun i => (x (alpha * beta + i) : ZMod _)) := by
      unfold wordDigit
      rw [if_neg h1]
    rw [hwd, prod_eq_baseProd]
    refine ⟨fun i q h2 h3 h4 hq => ?_, ?_⟩
    · have hi : i - alpha * beta < (blockPrimes Q levelQ alpha beta).length := by
        rw [hSl]; unfold blockSize; omega
      have := baseLift_cast (fquot F) (fam_pos hSM) (fun i j hi hj hij => fam_coprime hSM hSn i j hi hj hij)
        (fun i => ((x (alpha * beta + i) : ℕ) : ZMod (fam (blockPrimes Q levelQ alpha beta) i))) hi
      rw [fam_blockPrimes (by omega)] at this
      rw [show alpha * beta + (i - alpha * beta) = i by omega] at this
      rw [get?_fam (by omega)] at hq
      rw [← Option.some.inj hq, modEq_iff_cast, this, Int.cast_natCast]
    · refine baseLift_abs_lt (C48_floatOK hF) (fam_pos hSM) (by
        rw [hSl]; unfold blockSize; omega) (fun i hi => (hSM _ (fam_mem hi)).lt) _

theorem val_mul_inv_congr {m m' : ℕ} (h : m = m') (hm : 0 < m) {a : ZMod m} {a' : ZMod m'}
    (ha : a.val = a'.val) (b : ℕ) :
    (a * (b : ZMod m)⁻¹).val = (a' * (b : ZMod m')⁻¹).val := by
  subst h
  have : NeZero m := ⟨hm.ne'⟩
  rw [ZMod.val_injective m ha]

/-- `baseLift` depends only on the moduli and residues below `len`. -/
theorem baseLift_congr (fv : List (ℕ × ℕ) → ℕ) {M M' : ℕ → ℕ} {len : ℕ} (hM : ∀ i < len, M i = M' i)
    (hpos : ∀ i < len, 0 < M i) {x : (i : ℕ) → ZMod (M i)} {x' : (i : ℕ) → ZMod (M' i)}
    (hx : ∀ i < len, (x i).val = (x' i).val) : baseLift fv M len x = baseLift fv M' len x' := by
  have h1 : baseProd M len = baseProd M' len :=
    Finset.prod_congr rfl fun i hi => hM i (mem_range.mp hi)
  have h2 : ∀ i < len, baseQuot M len i = baseQuot M' len i := fun i hi => by
    unfold baseQuot; rw [h1, hM i hi]
  have h3 : ∀ i < len, liftY M len x i = liftY M' len x' i := fun i hi => by
    unfold liftY
    rw [h2 i hi]
    exact val_mul_inv_congr (hM i hi) (hpos i hi) (hx i hi) _
  have h4 : liftList M len x = liftList M' len x' := by
    unfold liftList
    refine List.map_congr_left fun i hi => ?_
    have hi' := List.mem_range.mp hi
    rw [h3 i hi', hM i hi']
  unfold baseLift
  rw [h1, h4]
  congr 1
  refine Finset.sum_congr rfl fun i hi => ?_
  have hi' := mem_range.mp hi
  rw [h2 i hi', h3 i hi']

/-- **C47**, refinement: the integer computed by the words of one coefficient is that coefficient
of the digit used in the model of the key switch (`KeySwitch.decomposeAndSplit`). -/
theorem C47_refines_digit {C : Ctx} (hfv : C.fv = fquot F) (hQl : ∀ i < Q.length, C.q i = fam Q i)
    (hQ : ∀ q ∈ Q, Modulus q) {L k : ℕ} (hL : L < Q.length) (ha : 0 < C.alpha)
    (hk : C.alpha * k ≤ L) (c : (i : ℕ) → Nega C.N (ZMod (C.q i))) (n : Fin C.N) :
    (digit C L c k).coeff n = wordDigit F Q L C.alpha k fun i => ((c i).coeff n).val := by
  have hlen : blockLen C L k = blockSize L C.alpha k := by
    have := decompLvl_eq ha hk
    unfold blockLen
    split at this
    · rename_i h; rw [if_pos h]; omega
    · rename_i h; rw [if_neg h]; omega
  unfold digit wordDigit
  simp only [hlen, blockPrimes_length hL]
  split
  · rfl
  · rw [hfv]
    have hb : ∀ i < blockSize L C.alpha k, C.alpha * k + i < Q.length := by
      intro i hi; unfold blockSize at hi; omega
    refine baseLift_congr _ (fun i hi => ?_) (fun i hi => ?_) fun i hi => ?_
    · rw [fam_blockPrimes hi]; exact hQl _ (hb i hi)
    · unfold blockMod; rw [hQl _ (hb i hi)]; exact fam_pos hQ _
    · have hM : Modulus (fam (blockPrimes Q L C.alpha k) i) := by
        rw [fam_blockPrimes hi]; exact hQ _ (fam_mem (hb i hi))
      have hq : fam (blockPrimes Q L C.alpha k) i = C.q (C.alpha * k + i) := by
        rw [fam_blockPrimes hi, hQl _ (hb i hi)]
      have : NeZero (C.q (C.alpha * k + i)) := ⟨by rw [← hq]; exact hM.pos.ne'⟩
      rw [ZMod.val_natCast, hq, Nat.mod_eq_of_lt (ZMod.val_lt _)]
      rfl

/-- **C47**, failure: if `gamma` does not divide the number of special primes and `alpha ≥ 2`, the
table ends before the last special prime, and every call on a block of at least two primes at
the top level of `P` panics with an index out of range. -/
theorem C47_panics_not_dvd (hF : F.Ok) (hQ : ∀ q ∈ Q, Modulus q) (hn : Q.Nodup)
    (hP : ∀ p ∈ P, Modulus p) {levelQ beta gamma : ℕ} (hg : 0 < gamma)
    (hnd : ¬ gamma ∣ P.length) (h32 : P.length / gamma ≤ 32) (hlQ : levelQ < Q.length)
    (hb : P.length / gamma * beta ≤ levelQ) (h2 : 2 ≤ blockSize levelQ (P.length / gamma) beta)
    {y p0Q p1Q p1P : List ℕ} (hy : y.length = 32) {x : ℕ → ℕ}
    (hp0 : ∀ i ≤ levelQ, p0Q[i]? = some (x i)) (hx : ∀ i ≤ levelQ, x i < 2 ^ 64)
    (hp1Q : levelQ < p1Q.length) (hp1P : P.length = p1P.length) :
    DecomposeAndSplit F (newDecomposer Q P gamma) Q P levelQ (P.length - 1) (P.length / gamma) beta
      gamma y p0Q p1Q p1P = .error .indexRange := by
  set alpha := P.length / gamma with hal
  have ha2 : 2 ≤ alpha := by unfold blockSize at h2; omega
  have hlt : gamma * alpha < P.length := by
    have := Nat.div_add_mod P.length gamma
    rw [← hal] at this
    have : P.length % gamma ≠ 0 := fun h => hnd (Nat.dvd_of_mod_eq_zero h)
    omega
  have hbs : ∀ i < blockSize levelQ alpha beta, alpha * beta + i ≤ levelQ := by
    intro i hi; unfold blockSize at hi; omega
  have hbl : blockSize levelQ alpha beta ≤ alpha := min_le_left _ _
  unfold DecomposeAndSplit
  rw [if_neg (by omega)]
  simp only [decompLvl_eq (by omega : 0 < alpha) hb]
  rw [if_neg (by omega)]
  obtain ⟨t1, t2, e1, e2, e3⟩ := C47_table hlQ hg hlt.le hb h2
  obtain ⟨st, s1, s2, s3, s4, s5⟩ := decomp_recon (F := F) (levelQ := levelQ) (alpha := alpha)
    (beta := beta) (T := Q ++ P.take (gamma * alpha)) (p0Q := p0Q) (p1Q := p1Q) (y := y)
    (x := fun i => x (alpha * beta + i)) hQ hn hlQ (fun i hi => hp0 _ (hbs i hi))
    (fun i hi => hx _ (hbs i hi)) hp1Q (by omega)
  set S := blockPrimes Q levelQ alpha beta with hS
  have hSl : S.length = blockSize levelQ alpha beta := blockPrimes_length hlQ
  have hSM : ∀ q ∈ S, Modulus q := blockPrimes_mem hQ levelQ alpha beta
  obtain ⟨l1, l2, a1, b1, -, -, -⟩ := decomp_rowsQ hF hQ (P' := P.take (gamma * alpha)) hSM
    (take_mem hP _) (by omega) (fun i => (x (alpha * beta + i) : ZMod (fam S i))) s4 hlQ hb
    (l := st.1) (by omega)
  have n1 : ((blockSize levelQ alpha beta : ℤ) - 2 + 2).toNat = blockSize levelQ alpha beta := by omega
  have n2 : ((blockSize levelQ alpha beta : ℤ) - 2).toNat = blockSize levelQ alpha beta - 2 := by omega
  rw [Nat.mul_comm beta alpha] at s1
  simp only [idx_of_get? e1, idx_of_get? e2, n2, idx_of_get? e3, Go.ok_bind, n1, s1, s5,
    Nat.mul_comm beta alpha]
  rw [← hSl, a1]
  simp only [Go.ok_bind, b1]
  rw [forEach_range_panics (k := gamma * alpha) (by omega) _ (fun _ l => l.length = P.length) _
    hp1P.symm (e := Panic.indexRange)]
  · rfl
  · intro j l hj hl
    obtain ⟨r, r1, -⟩ := decomp_rowP hF hQ hSM hP (by omega)
      (fun i => (x (alpha * beta + i) : ZMod (fam S i))) s4 hlt.le (j := j) (l := l) hj (by omega)
    exact ⟨_, r1, by rw [List.length_set]; exact hl⟩
  · intro l hl
    have hvt : (basisextenderparameters S (Q ++ P.take (gamma * alpha))).vtimesqmodp.length ≤
        Q.length + gamma * alpha := by
      simp only [basisextenderparameters, List.length_map, List.length_append, List.length_take]
      omega
    simp only [decompOut, idx_of_get? (get?_fam hlt), idx_panics hvt, Go.ok_bind]
    rfl

/-- **C47**, failure: with more digits per special modulus than special primes, `alpha = 0`. -/
theorem C47_panics_alpha_zero {levelQ levelP beta gamma : ℕ} (hg : P.length < gamma)
    {tab : List (List (List ModupParams))} {y p0Q p1Q p1P : List ℕ} :
    DecomposeAndSplit F tab Q P levelQ levelP (P.length / gamma) beta gamma y p0Q p1Q p1P =
      .error .indexRange := by
  unfold DecomposeAndSplit
  rw [if_pos (Nat.div_eq_of_lt hg)]
  rfl

end MK.Word
