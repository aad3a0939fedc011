import Verif.WordRun
import Mathlib.Data.Int.ModEq

/-!
# Properties of the basis extension (C31, C32, C33)

The statements speak about the lists of moduli and the columns of words; `X` is the integer
represented by a column.
-/

namespace MK.Word

open Finset

theorem take_mem {Q : List ℕ} (hQ : ∀ q ∈ Q, Modulus q) (n : ℕ) : ∀ q ∈ Q.take n, Modulus q :=
  fun q h => hQ q (List.mem_of_mem_take h)

theorem fam_take {Q : List ℕ} {n i : ℕ} (hi : i < n) : fam (Q.take n) i = fam Q i := by
  unfold fam
  rw [List.getD_eq_getElem?_getD, List.getD_eq_getElem?_getD, List.getElem?_take_of_lt hi]

theorem modEq_iff_cast {p : ℕ} {a b : ℤ} : a ≡ b [ZMOD p] ↔ (a : ZMod p) = (b : ZMod p) :=
  (ZMod.intCast_eq_intCast_iff a b p).symm

theorem getElem?_append_drop {out l : List ℕ} {n : ℕ} (h : out.length = n) (j : ℕ) :
    (out ++ l.drop n)[j]? = if j < n then out[j]? else l[j]? := by
  split
  · rename_i hj
    rw [List.getElem?_append_left (by omega)]
  · rename_i hj
    rw [List.getElem?_append_right (by omega), List.getElem?_drop, h]
    congr 1
    omega

/-- Both directions of `ModUp`. -/
theorem modUp_spec {F : Fl} (hF : F.Ok) {Q P : List ℕ} (hQ : ∀ q ∈ Q, Modulus q) (hn : Q.Nodup)
    (hP : ∀ p ∈ P, Modulus p) {levelQ levelP : ℕ} (hlQ : levelQ < Q.length) (hlP : levelP < P.length)
    (h32 : levelQ < 32) {y polQ polP : List ℕ} (hy : y.length = 32)
    (hpQ : levelQ < polQ.length) (hpP : levelP < polP.length) (hw : ∀ x ∈ polQ, x < 2 ^ 64)
    {X : ℕ} (hX : X < (Q.take (levelQ + 1)).prod)
    (hres : ∀ i q x, i ≤ levelQ → Q[i]? = some q → polQ[i]? = some x → x ≡ X [MOD q]) :
    ∃ (out : List ℕ) (d : ℤ), (do
        let p1 ← sliceTo polQ (levelQ + 1)
        let p2 ← sliceTo polP (levelP + 1)
        let r ← modUpExact F y p1 p2 Q P (basisextenderparameters (Q.take (levelQ + 1)) P)
        pure (r ++ polP.drop (levelP + 1)) : Go (List ℕ)) = .ok out ∧
      out.length = polP.length ∧ |d| ≤ 1 ∧
      (∀ j p, j ≤ levelP → P[j]? = some p → ∃ w, out[j]? = some w ∧
        (w : ℤ) ≡ X + d * ((Q.take (levelQ + 1)).prod : ℕ) [ZMOD p] ∧ w < 6 * p ∧
        ((Q.take (levelQ + 1)).sum ≤ 2 ^ 64 → w < 3 * p)) ∧
      (∀ j, levelP < j → out[j]? = polP[j]?) ∧
      ((Q.take (levelQ + 1)).prod ≤ X * 2 ^ 42 →
        X * 2 ^ 42 < (Q.take (levelQ + 1)).prod * (2 ^ 42 - 1) → d = 0) := by
  set S := Q.take (levelQ + 1) with hS
  have hSl : S.length = levelQ + 1 := by rw [hS, List.length_take]; omega
  have hSM : ∀ q ∈ S, Modulus q := take_mem hQ (levelQ + 1)
  have hSn : S.Nodup := hn.sublist (List.take_sublist _ _)
  set x : ℕ → ℕ := fun i => polQ.getD i 0 with hx
  have hxi : ∀ i < S.length, polQ[i]? = some (x i) := fun i hi => by
    rw [hx]; dsimp only
    rw [List.getD_eq_getElem _ _ (by omega), List.getElem?_eq_getElem (by omega)]
  obtain ⟨out, o1, o2, o3⟩ := modUpExact_spec hF hSM hSn hP (by omega) (y := y)
    (p1 := polQ.take (levelQ + 1)) (p2 := polP.take (levelP + 1)) (Q := Q) (x := x)
    (fun i hi => by rw [hS, fam_take (by omega), get?_fam (by omega)])
    (by rw [List.length_take, hSl]; omega)
    (fun i hi => by rw [List.getElem?_take_of_lt (by omega)]; exact hxi i hi)
    (fun i hi => hw _ (List.mem_of_getElem? (hxi i hi)))
    (by omega) (by rw [List.length_take]; omega)
  have hlen2 : (polP.take (levelP + 1)).length = levelP + 1 := by rw [List.length_take]; omega
  rw [hlen2] at o2 o3
  obtain ⟨d, d1, d2, d3⟩ := baseLift_value hF hSM hSn (by omega)
    (fun i => (x i : ZMod (fam S i))) hX (fun i hi => by
      refine (ZMod.natCast_eq_natCast_iff _ _ _).mpr ?_
      refine hres i _ _ (by omega) ?_ (hxi i hi)
      rw [hS, fam_take (by omega), get?_fam (by omega)])
  refine ⟨out ++ polP.drop (levelP + 1), d, ?_, ?_, d2, ?_, ?_, d3⟩
  · simp only [sliceTo_of_le (show levelQ + 1 ≤ polQ.length by omega),
      sliceTo_of_le (show levelP + 1 ≤ polP.length by omega), Go.ok_bind, o1]
    rfl
  · rw [List.length_append, o2, List.length_drop]; omega
  · intro j p hj hp
    obtain ⟨r, r1, r2, r3⟩ := o3 j (by omega)
    have hpj : fam P j = p := by
      rw [get?_fam (by omega)] at hp
      exact Option.some.inj hp
    rw [hpj] at r2 r3
    refine ⟨r, ?_, ?_, r3⟩
    · rw [getElem?_append_drop o2, if_pos (by omega), r1]
    · rw [modEq_iff_cast, Int.cast_natCast, r2, d1]
  · intro j hj
    rw [getElem?_append_drop o2, if_neg (by omega)]

variable {F : Fl} {Q P : List ℕ}

/-- **C31.** `ModUpQtoP` on the residues of `X < Q = q_0⋯q_levelQ` (any 64-bit representatives,
any stale content of the work array): no panic; there is one `d ∈ {-1, 0, 1}` such that every
output word `j ≤ levelP` is congruent to `X + d·Q` modulo `p_j`; `d = 0` unless `X/Q` is within
`2^-42` of `0` or `1`; every word is below `6·p_j < 2^64`, and below `3·p_j` when the source
primes sum to at most `2^64`; words above `levelP` are not written. -/
theorem C31_ModUpQtoP (hF : F.Ok) (hQ : ∀ q ∈ Q, Modulus q) (hn : Q.Nodup)
    (hP : ∀ p ∈ P, Modulus p) {levelQ levelP : ℕ} (hlQ : levelQ < Q.length) (hlP : levelP < P.length)
    (h32 : levelQ < 32) {y polQ polP : List ℕ} (hy : y.length = 32)
    (hpQ : levelQ < polQ.length) (hpP : levelP < polP.length) (hw : ∀ x ∈ polQ, x < 2 ^ 64)
    {X : ℕ} (hX : X < (Q.take (levelQ + 1)).prod)
    (hres : ∀ i q x, i ≤ levelQ → Q[i]? = some q → polQ[i]? = some x → x ≡ X [MOD q]) :
    ∃ (out : List ℕ) (d : ℤ),
      (newExtender Q P).ModUpQtoP F y levelQ levelP polQ polP = .ok out ∧
      out.length = polP.length ∧ |d| ≤ 1 ∧
      (∀ j p, j ≤ levelP → P[j]? = some p → ∃ w, out[j]? = some w ∧
        (w : ℤ) ≡ X + d * ((Q.take (levelQ + 1)).prod : ℕ) [ZMOD p] ∧ w < 6 * p ∧
        ((Q.take (levelQ + 1)).sum ≤ 2 ^ 64 → w < 3 * p)) ∧
      (∀ j, levelP < j → out[j]? = polP[j]?) ∧
      ((Q.take (levelQ + 1)).prod ≤ X * 2 ^ 42 →
        X * 2 ^ 42 < (Q.take (levelQ + 1)).prod * (2 ^ 42 - 1) → d = 0) := by
  obtain ⟨out, d, e, h⟩ := modUp_spec hF hQ hn hP hlQ hlP h32 hy hpQ hpP hw hX hres
  refine ⟨out, d, ?_, h⟩
  rw [← e]
  unfold Extender.ModUpQtoP
  have hidx : idx (newExtender Q P).paramsQtoP levelQ =
      .ok (basisextenderparameters (Q.take (levelQ + 1)) P) := by
    refine idx_of_get? ?_
    simp [newExtender, hlQ]
  simp only [hidx, sliceTo_of_le (show levelQ + 1 ≤ polQ.length by omega),
    sliceTo_of_le (show levelP + 1 ≤ polP.length by omega), Go.ok_bind]
  rfl

/-- **C31**, the other direction. -/
theorem C31_ModUpPtoQ (hF : F.Ok) (hQ : ∀ q ∈ Q, Modulus q) (hP : ∀ p ∈ P, Modulus p)
    (hn : P.Nodup) {levelP levelQ : ℕ} (hlP : levelP < P.length) (hlQ : levelQ < Q.length)
    (h32 : levelP < 32) {y polP polQ : List ℕ} (hy : y.length = 32)
    (hpP : levelP < polP.length) (hpQ : levelQ < polQ.length) (hw : ∀ x ∈ polP, x < 2 ^ 64)
    {X : ℕ} (hX : X < (P.take (levelP + 1)).prod)
    (hres : ∀ i p x, i ≤ levelP → P[i]? = some p → polP[i]? = some x → x ≡ X [MOD p]) :
    ∃ (out : List ℕ) (d : ℤ),
      (newExtender Q P).ModUpPtoQ F y levelP levelQ polP polQ = .ok out ∧
      out.length = polQ.length ∧ |d| ≤ 1 ∧
      (∀ j q, j ≤ levelQ → Q[j]? = some q → ∃ w, out[j]? = some w ∧
        (w : ℤ) ≡ X + d * ((P.take (levelP + 1)).prod : ℕ) [ZMOD q] ∧ w < 6 * q ∧
        ((P.take (levelP + 1)).sum ≤ 2 ^ 64 → w < 3 * q)) ∧
      (∀ j, levelQ < j → out[j]? = polQ[j]?) ∧
      ((P.take (levelP + 1)).prod ≤ X * 2 ^ 42 →
        X * 2 ^ 42 < (P.take (levelP + 1)).prod * (2 ^ 42 - 1) → d = 0) := by
  obtain ⟨out, d, e, h⟩ := modUp_spec hF hP hn hQ hlP hlQ h32 hy hpP hpQ hw hX hres
  refine ⟨out, d, ?_, h⟩
  rw [← e]
  unfold Extender.ModUpPtoQ
  have hidx : idx (newExtender Q P).paramsPtoQ levelP =
      .ok (basisextenderparameters (P.take (levelP + 1)) Q) := by
    refine idx_of_get? ?_
    simp [newExtender, hlP]
  simp only [hidx, sliceTo_of_le (show levelQ + 1 ≤ polQ.length by omega),
    sliceTo_of_le (show levelP + 1 ≤ polP.length by omega), Go.ok_bind]
  rfl

theorem forEach_range_panics {σ : Type _} {n k : ℕ} (hk : k < n) (body : ℕ → σ → Go σ)
    (Inv : ℕ → σ → Prop) (s : σ) (h0 : Inv 0 s)
    (step : ∀ i s, i < k → Inv i s → ∃ s', body i s = .ok s' ∧ Inv (i + 1) s') {e : Panic}
    (bad : ∀ s, Inv k s → body k s = .error e) :
    forEach (List.range n) body s = .error e := by
  obtain ⟨m, rfl⟩ : ∃ m, n = k + 1 + m := ⟨n - (k + 1), by omega⟩
  obtain ⟨s1, e1, h1⟩ := forEach_range k body Inv s h0 step
  rw [List.range_add, forEach_append, List.range_succ, forEach_append, e1]
  simp only [Go.ok_bind, forEach, bad s1 h1]
  rfl

/-- **C31**, limit: more than 32 source primes overrun the fixed work arrays and panic. -/
theorem C31_panics_above_32 (hQ : ∀ q ∈ Q, Modulus q) (hn : Q.Nodup) {levelQ levelP : ℕ}
    (hlQ : levelQ < Q.length) (h32 : 32 ≤ levelQ) {y polQ polP : List ℕ} (hy : y.length = 32)
    (hpQ : levelQ < polQ.length) (hpP : levelP < polP.length) (hw : ∀ x ∈ polQ, x < 2 ^ 64) :
    (newExtender Q P).ModUpQtoP F y levelQ levelP polQ polP = .error .indexRange := by
  have hidx : idx (newExtender Q P).paramsQtoP levelQ =
      .ok (basisextenderparameters (Q.take (levelQ + 1)) P) := by
    refine idx_of_get? ?_
    simp [newExtender, hlQ]
  unfold Extender.ModUpQtoP
  simp only [hidx, sliceTo_of_le (show levelQ + 1 ≤ polQ.length by omega),
    sliceTo_of_le (show levelP + 1 ≤ polP.length by omega), Go.ok_bind]
  unfold modUpExact reconstructRNS
  rw [show (newExtender Q P).Q = Q from rfl, show (newExtender Q P).P = P from rfl]
  have hlen : (polQ.take (levelQ + 1)).length = levelQ + 1 := by rw [List.length_take]; omega
  set S := Q.take (levelQ + 1) with hS
  have hSl : S.length = levelQ + 1 := by rw [hS, List.length_take]; omega
  set x : ℕ → ℕ := fun i => polQ.getD i 0 with hx
  have hxi : ∀ i, i ≤ levelQ → polQ[i]? = some (x i) := fun i hi => by
    rw [hx]; dsimp only
    rw [List.getD_eq_getElem _ _ (by omega), List.getElem?_eq_getElem (by omega)]
  have hbody : ∀ i (st : List ℕ × ℚ), i ≤ levelQ → ∃ yi q, reconStep F (polQ.take (levelQ + 1)) Q
      (Q.map MRedParams) (basisextenderparameters S P).qoverqiinvqi i st =
      (upd st.1 i yi >>= fun y => pure (y, fstep F st.2 yi q)) := by
    intro i st hi
    obtain ⟨c, c1, c2⟩ := liftY_word (P := P) (S := S) (take_mem hQ (levelQ + 1))
      (hn.sublist (List.take_sublist _ _)) (show i < S.length by omega) x
      (hw _ (List.mem_of_getElem? (hxi i hi)))
    refine ⟨MRed (x i) c (fam Q i) (MRedParams (fam Q i)), fam Q i, ?_⟩
    simp only [reconStep, idx_of_get? c1, idx_of_get? (get?_fam (show i < Q.length by omega)),
      idx_of_get? (show (polQ.take (levelQ + 1))[i]? = some (x i) by
        rw [List.getElem?_take_of_lt (by omega)]; exact hxi i hi),
      idx_of_get? (show (Q.map MRedParams)[i]? = some (MRedParams (fam Q i)) by
        rw [List.getElem?_map, get?_fam (show i < Q.length by omega)]; rfl), Go.ok_bind]
  rw [hlen, forEach_range_panics (k := 32) (by omega) _ (fun _ st => st.1.length = 32) _ hy
    (e := Panic.indexRange)]
  · rfl
  · intro i st hi hst
    obtain ⟨yi, q, e⟩ := hbody i st (by omega)
    rw [e, upd_of_lt (by omega)]
    exact ⟨_, rfl, by simpa using hst⟩
  · intro st hst
    obtain ⟨yi, q, e⟩ := hbody 32 st (by omega)
    rw [e]
    simp only [upd, hst]
    rfl

/-! ## ModDown -/

theorem genModDownParams_spec (hQ : ∀ q ∈ Q, Modulus q) (hP : ∀ p ∈ P, Modulus p)
    (hd : ∀ q ∈ Q, q ∉ P) : (genModDownParams Q P).length = P.length ∧
    ∀ j < P.length, ∃ row, (genModDownParams Q P)[j]? = some row ∧ ∀ i < Q.length, ∃ c,
      row[i]? = some c ∧ c < fam Q i ∧
        (c : ZMod (fam Q i)) * ((P.take (j + 1)).prod : ℕ) = montR := by
  have key : ∀ n ≤ P.length, ∀ t, t = (List.range n).foldl (fun params j => params ++
      [(List.range Q.length).map fun i =>
        let qi := Q.getD i 0
        let c := MForm (ModExp (P.getD j 0) (qi - 2) qi) qi
        if j > 0 then MRed c ((params.getLastD []).getD i 0) qi (MRedParams qi) else c]) [] →
      t.length = n ∧ ∀ j < n, ∃ row, t[j]? = some row ∧ ∀ i < Q.length, ∃ c,
        row[i]? = some c ∧ c < fam Q i ∧
          (c : ZMod (fam Q i)) * ((P.take (j + 1)).prod : ℕ) = montR := by
    intro n
    induction n with
    | zero => intro _ t ht; subst ht; exact ⟨rfl, by omega⟩
    | succ n ih =>
      intro hn t ht
      rw [foldl_range_succ] at ht
      obtain ⟨l1, l2⟩ := ih (by omega) _ rfl
      set t0 := (List.range n).foldl (fun params j => params ++
        [(List.range Q.length).map fun i =>
          let qi := Q.getD i 0
          let c := MForm (ModExp (P.getD j 0) (qi - 2) qi) qi
          if j > 0 then MRed c ((params.getLastD []).getD i 0) qi (MRedParams qi) else c]) [] with ht0
      subst ht
      refine ⟨by rw [List.length_append, l1]; rfl, fun j hj => ?_⟩
      rcases Nat.lt_succ_iff_lt_or_eq.mp hj with h | h
      · obtain ⟨row, r1, r2⟩ := l2 j h
        exact ⟨row, by rw [List.getElem?_append_left (by omega)]; exact r1, r2⟩
      · subst h
        refine ⟨_, by rw [List.getElem?_append_right (by omega), l1, Nat.sub_self]; rfl, fun i hi => ?_⟩
        have hM : Modulus (fam Q i) := hQ _ (fam_mem hi)
        have : Fact (fam Q i).Prime := ⟨hM.prime⟩
        have hne : ((fam P j : ℕ) : ZMod (fam Q i)) ≠ 0 := by
          rw [Ne, ZMod.natCast_eq_zero_iff, Nat.prime_dvd_prime_iff_eq hM.prime
            (hP _ (fam_mem (by omega))).prime]
          intro h
          exact hd _ (fam_mem hi) (h ▸ fam_mem (by omega))
        have hinv : ((ModExp (fam P j) (fam Q i - 2) (fam Q i) : ℕ) : ZMod (fam Q i)) *
            (fam P j : ℕ) = 1 := by
          unfold ModExp
          rw [ZMod.natCast_mod, Nat.cast_pow, ← pow_succ]
          have h2 := hM.prime.two_le
          rw [show fam Q i - 2 + 1 = fam Q i - 1 by omega]
          exact ZMod.pow_card_sub_one_eq_one hne
        refine ⟨_, by rw [List.getElem?_map, List.getElem?_range hi]; rfl, ?_⟩
        simp only [getD_eq_fam hi, getD_eq_fam (show j < P.length by omega)]
        have hprod : ((P.take (j + 1)).prod : ℕ) = (P.take j).prod * fam P j := by
          rw [List.take_add_one, List.prod_append, get?_fam (by omega)]
          simp
        by_cases h0 : j > 0
        · rw [if_pos h0]
          obtain ⟨row, r1, r2⟩ := l2 (j - 1) (by omega)
          obtain ⟨c, c1, c2, c3⟩ := r2 i hi
          have hlast : (t0.getLastD []).getD i 0 = c := by
            have : t0.getLastD [] = row := by
              rw [List.getLastD_eq_getLast?, List.getLast?_eq_getElem?, l1, r1]; rfl
            rw [this, List.getD_eq_getElem?_getD, c1]; rfl
          rw [hlast]
          have hm := MForm_lt (a := ModExp (fam P j) (fam Q i - 2) (fam Q i)) hM.pos
          obtain ⟨m1, m2⟩ := MRed_spec (x := MForm (ModExp (fam P j) (fam Q i - 2) (fam Q i)) (fam Q i))
            (y := c) hM.coprime hM.two_le hM.pos (by
              have := hM.lt_montR
              calc _ ≤ fam Q i * c := Nat.mul_le_mul_right _ hm.le
                _ < fam Q i * montR := Nat.mul_lt_mul_of_pos_left (by omega) hM.pos)
          refine ⟨m1, ?_⟩
          rw [m2, MForm_cast, hprod]
          rw [show j - 1 + 1 = j by omega] at c3
          push_cast
          push_cast at c3
          linear_combination (((ModExp (fam P j) (fam Q i - 2) (fam Q i) : ℕ) : ZMod (fam Q i)) * (fam P j : ℕ)) * ((c : ZMod (fam Q i)) * ((List.map (Nat.cast : ℕ → ZMod (fam Q i)) (P.take j)).prod)) * hM.inv + (((ModExp (fam P j) (fam Q i - 2) (fam Q i) : ℕ) : ZMod (fam Q i)) * (fam P j : ℕ)) * c3 + (montR : ZMod (fam Q i)) * hinv
        · rw [if_neg h0]
          refine ⟨MForm_lt hM.pos, ?_⟩
          have : j = 0 := by omega
          subst this
          rw [MForm_cast, hprod]
          simp only [List.take_zero, List.prod_nil, one_mul]
          linear_combination (montR : ZMod (fam Q i)) * hinv
  exact ⟨(key P.length le_rfl _ rfl).1, (key P.length le_rfl _ rfl).2⟩

end MK.Word
