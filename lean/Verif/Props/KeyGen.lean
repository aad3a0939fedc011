import Verif.KeyGen
import Verif.NttInst
import Verif.Props.Sets

/-!
# C34, C35: the equations satisfied by generated keys, and rotation-key indices
-/

noncomputable section

namespace MK

variable {C : Ctx}

section Dec

variable {N : ℕ} [NeZero N] {m : ℕ → ℕ} (D : Ntt N m)

theorem Ntt.dec_mulMontSub {l i : ℕ} (h : i ≤ l) (a b out : RPoly N m) :
    D.dec i ((RPoly.mulMontSubLvl l a b out).row i) =
      D.dec i (out.row i) - D.dec i (a.row i) * D.dec i (b.row i) := by
  unfold RPoly.mulMontSubLvl
  rw [RPoly.write_row_of_le _ _ h, ← D.dec_mred, ← D.dec_sub]
  rfl

theorem Ntt.dec_mulMontAdd {l i : ℕ} (h : i ≤ l) (a b out : RPoly N m) :
    D.dec i ((RPoly.mulMontAddLvl l a b out).row i) =
      D.dec i (out.row i) + D.dec i (a.row i) * D.dec i (b.row i) := by
  unfold RPoly.mulMontAddLvl
  rw [RPoly.write_row_of_le _ _ h, ← D.dec_mred, ← D.dec_add]
  rfl

theorem Ntt.dec_mulMont {l i : ℕ} (h : i ≤ l) (a b out : RPoly N m) :
    D.dec i ((RPoly.mulMontLvl l a b out).row i) =
      D.dec i (a.row i) * D.dec i (b.row i) := by
  unfold RPoly.mulMontLvl
  rw [RPoly.write_row_of_le _ _ h, ← D.dec_mred]

theorem Ntt.dec_permuteLvl {l i g : ℕ} (h : i ≤ l) (hg : Odd g) (a out : RPoly N m) :
    D.dec i ((a.permuteNttLvl D l g out).row i) = Nega.auto g (D.dec i (a.row i)) := by
  unfold RPoly.permuteNttLvl
  rw [RPoly.write_row_of_le _ _ h, D.dec_permute _ _ hg]

end Dec

/-! ## C34 -/

/-- **C34 (secret keys).** A generated secret key stores the sampled polynomial modulo all
primes of both chains. -/
theorem C34_secret_key (hC : C.Good) {s : Nega C.N ℤ} (hs : Small C s) (id : String) :
    IsSK (GenSecretKey s id) s ∧ (GenSecretKey s id).id = id :=
  ⟨genSecretKey_isSK hC hs id, rfl⟩

/-- **C34 (public keys).** `pk_0 + pk_1 s = e` modulo every prime of the chain, for every CRS,
secret and error. -/
theorem C34_public_key (hC : C.Good) {crs : CRS C} {a : SwKey C} (ha : crs.get? 0 = some a)
    (halen : (a 0).Q.len = C.nQ) {s e : Nega C.N ℤ} (he : Small C e) {sk : SecretKey C}
    (hsk : IsSK sk s) :
    ∃ pk, GenPublicKey crs e sk = .ok pk ∧ pk.id = sk.id ∧ IsPK pk s e := by
  refine ⟨?w, ?_, ?_, ?_⟩
  rotate_left 1
  · unfold GenPublicKey
    rw [GoMap.deref_of_get? ha]
    rfl
  · rfl
  · intro i hi
    have hi' := hC.lq_lt.mpr hi
    have hcopy : ((a 0).Q.copy (QP.new : QP C).Q).row i = (a 0).Q.row i := by
      simp only [RPoly.copy, QP.new, RPoly.new, halen, min_self, hi, if_true]
    have h1 := (genGaussianError_rows hC he (QP.new : QP C)).1 i hi
    dsimp only
    rw [hcopy]
    have h2 : (QP.mulMontSubLvl C.lq C.lp sk.value
        ⟨(a 0).Q.copy (QP.new : QP C).Q, (a 0).P.copy (QP.new : QP C).P⟩
        (GenGaussianError e QP.new)).Q.row i =
        C.nttQ.equiv i (Nega.red (C.q i) e) -
          C.nttQ.equiv i (Nega.red (C.q i) s) * (a 0).Q.row i := by
      simp only [QP.mulMontSubLvl, RPoly.mulMontSubLvl]
      rw [RPoly.write_row_of_le _ _ hi', h1, hcopy]
      funext j
      rw [hsk.q i hi j, RPoly.mred_mont (hC.oddQ i)]
      rfl
    refine (congrArg (fun x => (C.nttQ.equiv i).symm x + _) h2).trans ?_
    rw [map_sub, map_mul, RingEquiv.symm_apply_apply, RingEquiv.symm_apply_apply]
    ring

theorem genB_spec (a : SwKey C) (sk : SecretKey C) (e : ℕ → Nega C.N ℤ) (n : ℕ)
    (tmp : QP C) (b : SwKey C) (k : ℕ) :
    (forLt n (genBStep a sk e) (tmp, b)).2 k = if k < n then
      (let bi := QP.mulMontLvl C.lq C.lp (a k) sk.value (b k)
       let bi := QP.invMformLvl C.lq C.lp bi bi
       let t := GenGaussianError (e k) (forLt k (genBStep a sk e) (tmp, b)).1
       let bi := QP.subLvl C.lq C.lp t bi bi
       QP.mformLvl C.lq C.lp bi bi) else b k := by
  induction n generalizing k with
  | zero => rfl
  | succ n ih =>
    simp only [forLt, genBStep]
    by_cases h : k = n
    · subst h
      rw [Function.update_self, ih, if_neg (lt_irrefl _), if_pos (Nat.lt_succ_self _)]
    · rw [Function.update_of_ne h, ih]
      by_cases h2 : k < n
      · rw [if_pos h2, if_pos (by omega)]
      · rw [if_neg h2, if_neg (by omega)]

/-- **C34 (relinearisation keys).** For every CRS, secrets, errors and scratch content the
generated `(b, d, v)` satisfies `b_k = e_k - a_k s`, `d_k = e_k + P g_k s - a_k r`,
`v_k = -e_k - P g_k r - u_k s` modulo every prime of both chains. -/
theorem C34_relin_key (hC : C.Good) {crs : CRS C} {a u : SwKey C} (ha : crs.get? 0 = some a)
    (hu : crs.get? (-1) = some u) {s r : Nega C.N ℤ} {sk rk : SecretKey C} (hs : IsSK sk s)
    (hr : IsSK rk r) {eb ed ev : ℕ → Nega C.N ℤ} (heb : ∀ k, Small C (eb k))
    (hed : ∀ k, Small C (ed k)) (hev : ∀ k, Small C (ev k)) (poolQ : RQ C) (poolQP : QP C) :
    ∃ rlk, GenRelinearizationKey crs poolQ poolQP eb ed ev sk rk = .ok rlk ∧ rlk.id = sk.id ∧
      SwEq rlk.b a s 0 eb ∧ SwEq rlk.d a r s ed ∧
      SwEq rlk.v u s (-r) (fun k => - ev k) := by
  refine ⟨?w, ?_, ?_, ?_, ?_, ?_⟩
  rotate_left 1
  · unfold GenRelinearizationKey
    rw [if_neg hC.nP_pos.ne', GoMap.deref_of_get? ha, GoMap.deref_of_get? hu]
    rfl
  · rfl
  · constructor
    · intro k hk i hi
      have hi' := hC.lq_lt.mpr hi
      dsimp only
      rw [genB_spec, if_pos hk]
      have h1 := (genGaussianError_rows hC (heb k)
        (forLt k (genBStep a sk eb) (poolQP, SwKey.new)).1).1 i hi
      simp only [QP.mformLvl, RPoly.mformLvl, RPoly.write_row_of_le _ _ hi', QP.subLvl,
        RPoly.subLvl, QP.invMformLvl, RPoly.invMformLvl, QP.mulMontLvl, RPoly.mulMontLvl, h1]
      rw [Ntt.dec_mform _ _ (hC.oddQ i), map_sub, RingEquiv.symm_apply_apply, map_zero,
        mul_zero, add_zero, ← hs.decQ hC hi, ← Ntt.dec_mred]
      rfl
    · intro k hk i hi
      have hi' := hC.lp_lt.mpr hi
      dsimp only
      rw [genB_spec, if_pos hk]
      have h1 := (genGaussianError_rows hC (heb k)
        (forLt k (genBStep a sk eb) (poolQP, SwKey.new)).1).2 i hi
      simp only [QP.mformLvl, RPoly.mformLvl, RPoly.write_row_of_le _ _ hi', QP.subLvl,
        RPoly.subLvl, QP.invMformLvl, RPoly.invMformLvl, QP.mulMontLvl, RPoly.mulMontLvl, h1]
      rw [Ntt.dec_mform _ _ (hC.oddP i), map_sub, RingEquiv.symm_apply_apply,
        ← hs.decP hC hi, ← Ntt.dec_mred]
      rfl
  · obtain ⟨hq, hp⟩ := genSwitchingKey_spec hC poolQ hed (skIn := sk) (m := s)
      (fun i hi => hs.decQ hC hi) SwKey.new
    constructor
    · intro k hk i hi
      dsimp only
      rw [forLt_update (f := fun i v => QP.mulMontSubLvl C.lq C.lp (a i) rk.value v), if_pos hk]
      simp only [QP.mulMontSubLvl]
      rw [Ntt.dec_mulMontSub _ (hC.lq_lt.mpr hi), hr.decQ hC hi]
      exact congrArg (fun x => x - _) (hq k hk i hi)
    · intro k hk i hi
      dsimp only
      rw [forLt_update (f := fun i v => QP.mulMontSubLvl C.lq C.lp (a i) rk.value v), if_pos hk]
      simp only [QP.mulMontSubLvl]
      rw [Ntt.dec_mulMontSub _ (hC.lp_lt.mpr hi), hr.decP hC hi]
      exact congrArg (fun x => x - _) (hp k hk i hi)
  · obtain ⟨hq, hp⟩ := genSwitchingKey_spec hC (GenSwitchingKey poolQ ed sk SwKey.new).1 hev
      (skIn := rk) (m := r) (fun i hi => hr.decQ hC hi) SwKey.new
    constructor
    · intro k hk i hi
      have hi' := hC.lq_lt.mpr hi
      dsimp only
      rw [forLt_update (f := fun i v =>
        let vi := QP.mulMontAddLvl C.lq C.lp (u i) sk.value v
        (⟨RPoly.negLvl C.lq vi.Q vi.Q, RPoly.negLvl C.lp vi.P vi.P⟩ : QP C)), if_pos hk]
      simp only [QP.mulMontAddLvl, RPoly.negLvl]
      rw [RPoly.write_row_of_le _ _ hi', Ntt.dec_neg, Ntt.dec_mulMontAdd _ hi',
        hs.decQ hC hi, map_neg, map_neg]
      refine (congrArg (fun x => -(x + _)) (hq k hk i hi)).trans ?_
      ring
    · intro k hk i hi
      have hi' := hC.lp_lt.mpr hi
      dsimp only
      rw [forLt_update (f := fun i v =>
        let vi := QP.mulMontAddLvl C.lq C.lp (u i) sk.value v
        (⟨RPoly.negLvl C.lq vi.Q vi.Q, RPoly.negLvl C.lp vi.P vi.P⟩ : QP C)), if_pos hk]
      simp only [QP.mulMontAddLvl, RPoly.negLvl]
      rw [RPoly.write_row_of_le _ _ hi', Ntt.dec_neg, Ntt.dec_mulMontAdd _ hi',
        hs.decP hC hi, map_neg]
      refine (congrArg (fun x => -(x + _)) (hp k hk i hi)).trans ?_
      ring

theorem odd_mod_two_mul {a N : ℕ} (ha : Odd a) : Odd (a % (2 * N)) := by
  rw [Nat.odd_iff] at *
  rw [Nat.mod_mul_right_mod]
  exact ha

theorem galCol_odd (N k : ℕ) : Odd (galCol N k) :=
  odd_mod_two_mul (Odd.pow (by decide))
theorem galInv_odd {N g : ℕ} (hg : Odd g) : Odd (galInv N g) := odd_mod_two_mul hg.pow
theorem galRow_odd {N : ℕ} (hN : 0 < N) : Odd (galRow N) := by
  unfold galRow
  rw [Nat.odd_iff]; omega

theorem permuteKey_dec (hC : C.Good) {g : ℕ} (hg : Odd g) {sk : SecretKey C} {s : Nega C.N ℤ}
    (hs : IsSK sk s) :
    (∀ i < C.nQ, C.nttQ.dec i ((permuteKey g sk.value).Q.row i) =
      Nega.red (C.q i) (Nega.auto g s)) ∧
    (∀ i < C.nP, C.nttP.dec i ((permuteKey g sk.value).P.row i) =
      Nega.red (C.p i) (Nega.auto g s)) := by
  refine ⟨fun i hi => ?_, fun i hi => ?_⟩
  · unfold permuteKey
    rw [Ntt.dec_permuteLvl _ (hC.lq_lt.mpr hi) hg, hs.decQ hC hi, Nega.auto_red]
  · unfold permuteKey
    rw [Ntt.dec_permuteLvl _ (hC.lp_lt.mpr hi) hg, hs.decP hC hi, Nega.auto_red]

/-- **C34 (rotation keys).** The key for index `k` encrypts `P g s` under `σ⁻¹(s)` with the CRS
of the (normalised) index, where `σ = X ↦ X^(5^k)`. -/
theorem C34_rotation_key (hC : C.Good) {crs : CRS C} {rot : ℤ} (hin : crs.has rot = true)
    {a : SwKey C} (ha : crs.get? (normRot (C.N / 2) rot) = some a) {s : Nega C.N ℤ}
    {sk : SecretKey C} (hs : IsSK sk s) {e : ℕ → Nega C.N ℤ} (he : ∀ k, Small C (e k))
    (poolQ : RQ C) :
    ∃ rk, GenRotationKey crs poolQ e rot sk = .ok rk ∧ rk.id = sk.id ∧
      rk.rotIdx = (normRot (C.N / 2) rot).toNat ∧
      SwEq rk.value a
        (Nega.auto (galInv C.N (galCol C.N (normRot (C.N / 2) rot).toNat)) s) s e := by
  have hgo : Odd (galInv C.N (galCol C.N (normRot (C.N / 2) rot).toNat)) :=
    galInv_odd (galCol_odd _ _)
  obtain ⟨hq, hp⟩ := genSwitchingKey_spec hC poolQ he (skIn := sk) (m := s)
    (fun i hi => hs.decQ hC hi) SwKey.new
  obtain ⟨hpq, hpp⟩ := permuteKey_dec hC hgo hs
  refine ⟨?w, ?_, ?_, ?_, ?_⟩
  rotate_left 1
  · unfold GenRotationKey
    simp only [hin, Bool.not_true, Bool.false_eq_true, if_false]
    rw [GoMap.deref_of_get? ha]
    rfl
  · rfl
  · rfl
  · constructor
    · intro k hk i hi
      dsimp only
      rw [forLt_update (f := fun i v => QP.mulMontSubLvl C.lq C.lp (a i) _ v), if_pos hk]
      simp only [QP.mulMontSubLvl]
      rw [Ntt.dec_mulMontSub _ (hC.lq_lt.mpr hi), hpq i hi]
      exact congrArg (fun x => x - _) (hq k hk i hi)
    · intro k hk i hi
      dsimp only
      rw [forLt_update (f := fun i v => QP.mulMontSubLvl C.lq C.lp (a i) _ v), if_pos hk]
      simp only [QP.mulMontSubLvl]
      rw [Ntt.dec_mulMontSub _ (hC.lp_lt.mpr hi), hpp i hi]
      exact congrArg (fun x => x - _) (hp k hk i hi)

/-- **C34 (conjugation keys).** The key encrypts `P g σ(s)` under `s`, `σ = X ↦ X^(2N-1)`. -/
theorem C34_conjugation_key (hC : C.Good) {crs : CRS C} {a : SwKey C}
    (ha : crs.get? (-2) = some a) {s : Nega C.N ℤ} {sk : SecretKey C} (hs : IsSK sk s)
    {e : ℕ → Nega C.N ℤ} (he : ∀ k, Small C (e k)) (poolQ : RQ C) :
    ∃ cjk, GenConjugationKey crs poolQ e sk = .ok cjk ∧ cjk.id = sk.id ∧
      SwEq cjk.value a s (Nega.auto (galRow C.N) s) e := by
  have hgo : Odd (galRow C.N) := galRow_odd (Nat.pos_of_ne_zero (NeZero.ne C.N))
  obtain ⟨hpq, hpp⟩ := permuteKey_dec hC hgo hs
  obtain ⟨hq, hp⟩ := genSwitchingKey_spec hC poolQ he
    (skIn := ⟨sk.id, permuteKey (galRow C.N) sk.value⟩) (m := Nega.auto (galRow C.N) s)
    (fun i hi => hpq i hi) SwKey.new
  refine ⟨?w, ?_, ?_, ?_⟩
  rotate_left 1
  · unfold GenConjugationKey
    rw [GoMap.deref_of_get? ha]
    rfl
  · rfl
  · constructor
    · intro k hk i hi
      dsimp only
      rw [forLt_update (f := fun i v => QP.mulMontSubLvl C.lq C.lp (a i) _ v), if_pos hk]
      simp only [QP.mulMontSubLvl]
      rw [Ntt.dec_mulMontSub _ (hC.lq_lt.mpr hi), hs.decQ hC hi]
      exact congrArg (fun x => x - _) (hq k hk i hi)
    · intro k hk i hi
      dsimp only
      rw [forLt_update (f := fun i v => QP.mulMontSubLvl C.lq C.lp (a i) _ v), if_pos hk]
      simp only [QP.mulMontSubLvl]
      rw [Ntt.dec_mulMontSub _ (hC.lp_lt.mpr hi), hs.decP hC hi]
      exact congrArg (fun x => x - _) (hp k hk i hi)

/-! ## C35 -/

/-- The normalisation loop keeps non-negative indices and maps negative ones into
`[0, N/2)`. -/
theorem normRot_spec {half : ℕ} (h : 0 < half) (r : ℤ) :
    normRot half r = if r < 0 then r % half else r := by
  induction r using normRot.induct half with
  | case1 r hr ih =>
    rw [normRot, if_pos hr, ih, if_pos hr.1]
    split
    · rw [Int.add_emod_right]
    · rename_i h2
      rw [← Int.add_emod_right, Int.emod_eq_of_lt (by omega) (by omega)]
  | case2 r hr =>
    rw [normRot, if_neg hr, if_neg (fun h2 => hr ⟨h2, h⟩)]

/-- **C35 (exact law).** `GenRotationKey` succeeds iff the CRS has both the index as given and
its normalisation; on success the stored index is the normalisation — which for a
non-negative index is the index itself, even above `N/2`. -/
theorem C35_rotation_key_index {crs : CRS C} (poolQ : RQ C) (e : ℕ → Nega C.N ℤ) (rot : ℤ)
    (sk : SecretKey C) (hN : 2 ≤ C.N) :
    (Go.panics (GenRotationKey crs poolQ e rot sk) ↔
      ¬ (rot ∈ crs.keys ∧ (if rot < 0 then rot % (C.N / 2 : ℕ) else rot) ∈ crs.keys)) ∧
    ∀ rk, GenRotationKey crs poolQ e rot sk = .ok rk →
      (rk.rotIdx : ℤ) = if rot < 0 then rot % (C.N / 2 : ℕ) else rot := by
  have hh : 0 < C.N / 2 := by omega
  rw [← normRot_spec hh rot]
  have hnn : 0 ≤ normRot (C.N / 2) rot := by
    rw [normRot_spec hh]
    split
    · exact Int.emod_nonneg _ (by omega)
    · omega
  unfold GenRotationKey
  by_cases hin : crs.has rot = true
  · have hmem := (GoMap.has_iff _ _).mp hin
    simp only [hin, Bool.not_true, Bool.false_eq_true, if_false, hmem, true_and]
    cases hg : crs.get? (normRot (C.N / 2) rot) with
    | none =>
      have hn := (GoMap.get?_eq_none_iff _ _).mp hg
      have hd : crs.deref (normRot (C.N / 2) rot) = .error .nilDeref := by
        simp [GoMap.deref, hg]
      rw [hd]
      refine ⟨⟨fun _ => hn, fun _ => ⟨.nilDeref, rfl⟩⟩, fun rk h => ?_⟩
      cases h
    | some a =>
      have hm := GoMap.mem_keys_of_get? hg
      rw [GoMap.deref_of_get? hg]
      refine ⟨⟨fun ⟨x, hx⟩ => ?_, fun h => absurd hm h⟩, fun rk h => ?_⟩
      · cases hx
      · cases h
        exact Int.toNat_of_nonneg hnn
  · have hmem : rot ∉ crs.keys := fun h => hin ((GoMap.has_iff _ _).mpr h)
    simp only [Bool.not_eq_true] at hin
    simp only [hin, Bool.not_false, if_true, hmem, false_and, not_false_eq_true, iff_true]
    exact ⟨⟨_, rfl⟩, fun rk h => by cases h⟩

theorem crsLoop_keys (sample : ℤ → SwKey C) (l : List ℤ) (crs : CRS C) (k : ℤ) :
    k ∈ (crsLoop sample crs l).keys ↔ k ∈ l ∨ k ∈ crs.keys := by
  induction l generalizing crs with
  | nil => simp [crsLoop]
  | cons a l ih =>
    simp only [crsLoop, ih, GoMap.mem_keys_set, List.mem_cons]
    tauto

/-- The default CRS has the indices `0, -1, ..., -4` and the powers of two below `N/2`. -/
theorem newCRS_keys (logN : ℕ) (sample : ℤ → SwKey C) (k : ℤ) :
    k ∈ (newCRS logN sample).keys ↔ (-4 ≤ k ∧ k ≤ 0) ∨ ∃ i < logN - 1, k = 2 ^ i := by
  unfold newCRS
  rw [crsLoop_keys]
  simp only [crsIdxs, List.mem_append, List.mem_cons, List.not_mem_nil, or_false, List.mem_map,
    List.mem_range, GoMap.empty_keys]
  constructor
  · rintro (h | ⟨i, hi, rfl⟩)
    · left; omega
    · right; exact ⟨i, hi, by push_cast; rfl⟩
  · rintro (h | ⟨i, hi, rfl⟩)
    · left; omega
    · right; exact ⟨i, hi, by push_cast; rfl⟩

/-- **C35 (default parameters).** With the default CRS, a key for a negative index `rot` can be
generated only for the four reserved indices `-1..-4`, and only if `rot mod N/2` happens to be
zero or a power of two; every other negative index panics although the equivalent positive
index may be available. -/
theorem C35_default_negative (logN : ℕ) (sample : ℤ → SwKey C) (poolQ : RQ C)
    (e : ℕ → Nega C.N ℤ) (rot : ℤ) (hr : rot < 0) (sk : SecretKey C) (hN : 2 ≤ C.N) :
    Go.panics (GenRotationKey (newCRS logN sample) poolQ e rot sk) ↔
      ¬ (-4 ≤ rot ∧ (rot % (C.N / 2 : ℕ) = 0 ∨
        ∃ i < logN - 1, rot % (C.N / 2 : ℕ) = 2 ^ i)) := by
  rw [(C35_rotation_key_index poolQ e rot sk hN).1, if_pos hr, newCRS_keys, newCRS_keys,
    not_iff_not]
  have h0 : 0 ≤ rot % (C.N / 2 : ℕ) := Int.emod_nonneg _ (by omega)
  constructor
  · rintro ⟨h1, h2⟩
    refine ⟨?_, ?_⟩
    · rcases h1 with h1 | ⟨i, _, rfl⟩
      · exact h1.1
      · have : (0 : ℤ) < 2 ^ i := by positivity
        omega
    · rcases h2 with h2 | h2
      · left; omega
      · exact Or.inr h2
  · rintro ⟨h1, h2⟩
    refine ⟨Or.inl ⟨h1, by omega⟩, ?_⟩
    rcases h2 with h2 | h2
    · left; omega
    · exact Or.inr h2

/-- **C35 (counterexample to the documented use).** For every `N ≥ 32` the index `-1` always
panics with the default CRS, although rotating by `-1` is legitimate. -/
theorem C35_minus_one_panics {logN : ℕ} (hlog : 4 < logN) (hN : C.N = 2 ^ logN)
    (sample : ℤ → SwKey C) (poolQ : RQ C) (e : ℕ → Nega C.N ℤ) (sk : SecretKey C) :
    Go.panics (GenRotationKey (newCRS logN sample) poolQ e (-1) sk) := by
  obtain ⟨l, rfl⟩ : ∃ l, logN = l + 5 := ⟨logN - 5, by omega⟩
  have hN2 : C.N / 2 = 2 ^ (l + 4) := by rw [hN, pow_succ, Nat.mul_div_cancel _ (by norm_num)]
  have hpos : 1 ≤ 2 ^ l := Nat.one_le_two_pow
  have h16 : (2 : ℕ) ^ (l + 4) = 16 * 2 ^ l := by rw [pow_add]; ring
  rw [C35_default_negative _ _ _ _ _ (by norm_num) _ (by rw [hN, pow_succ, h16]; omega), hN2]
  rintro ⟨-, h⟩
  have hmod : (-1 : ℤ) % ((2 ^ (l + 4) : ℕ) : ℤ) = 16 * 2 ^ l - 1 := by
    rw [h16]
    push_cast
    have : (1 : ℤ) ≤ 2 ^ l := by exact_mod_cast hpos
    rw [← Int.add_emod_right, Int.emod_eq_of_lt (by omega) (by omega)]
    ring
  rw [hmod] at h
  have h1 : (1 : ℤ) ≤ 2 ^ l := by exact_mod_cast hpos
  rcases h with h | ⟨i, -, h⟩
  · omega
  · cases i with
    | zero => simp at h; omega
    | succ i => rw [pow_succ] at h; omega

/-- **C35 (sparse key pairs).** `GenKeyPairSparse` dereferences nil on every input. -/
theorem C35_keypair_sparse_panics (crs : CRS C) (s e : Nega C.N ℤ) :
    Go.panics (GenKeyPairSparse crs s e) := ⟨.nilDeref, rfl⟩

/-- Default rotation keys: the loop stores a key for each power of two below `N/2` and changes
nothing else. -/
theorem genDefaultLoop_spec {crs : CRS C} {poolQ : RQ C} {e : ℕ → ℕ → Nega C.N ℤ}
    {sk : SecretKey C} (hcrs : ∀ t, 2 ^ t < C.N / 2 → ((2 ^ t : ℕ) : ℤ) ∈ crs.keys)
    (n : ℕ) : ∀ (t : ℕ) (set : RotationKeySet (RotKey C)), C.N / 2 - 2 ^ t ≤ n →
    ∃ r, genDefaultLoop crs poolQ e sk (2 ^ t) set = .ok r ∧
      (∀ u, t ≤ u → 2 ^ u < C.N / 2 → ∃ k,
        GenRotationKey crs poolQ (e (2 ^ u)) ((2 ^ u : ℕ) : ℤ) sk = .ok k ∧
        k.rotIdx = 2 ^ u ∧ r.get2 sk.id (2 ^ u) = some k) ∧
      (∀ id idx, (id ≠ sk.id ∨ ∀ u, t ≤ u → 2 ^ u < C.N / 2 → idx ≠ 2 ^ u) →
        r.get2 id idx = set.get2 id idx) := by
  induction n with
  | zero =>
    intro t set hn
    refine ⟨set, ?_, ?_, fun _ _ _ => rfl⟩
    · rw [genDefaultLoop, dif_neg (by omega)]
    · intro u hu hu2
      have := Nat.pow_le_pow_right (n := 2) (by norm_num) hu
      omega
  | succ n ih =>
    intro t set hn
    by_cases ht : 2 ^ t < C.N / 2
    · have hpos : 0 < 2 ^ t := by positivity
      have hN : 2 ≤ C.N := by omega
      have hmem := hcrs t ht
      cases hk : GenRotationKey crs poolQ (e (2 ^ t)) ((2 ^ t : ℕ) : ℤ) sk with
      | error x =>
        have := ((C35_rotation_key_index poolQ (e (2 ^ t)) ((2 ^ t : ℕ) : ℤ) sk hN).1.mp
          ⟨x, hk⟩)
        rw [if_neg (by omega)] at this
        exact absurd ⟨hmem, hmem⟩ this
      | ok k =>
        have hidx := (C35_rotation_key_index poolQ (e (2 ^ t)) ((2 ^ t : ℕ) : ℤ) sk hN).2 k hk
        rw [if_neg (by omega)] at hidx
        have hidx : k.rotIdx = 2 ^ t := by exact_mod_cast hidx
        have hkid : k.id = sk.id := by
          unfold GenRotationKey at hk
          rw [(GoMap.has_iff _ _).mpr hmem] at hk
          simp only [Bool.not_true, Bool.false_eq_true, if_false] at hk
          cases hd : crs.deref (normRot (C.N / 2) ((2 ^ t : ℕ) : ℤ)) with
          | error x => rw [hd] at hk; cases hk
          | ok a => rw [hd] at hk; cases hk; rfl
        obtain ⟨r, hr, hu, ho⟩ := ih (t + 1) (set.add RotKey.id RotKey.rotIdx k) (by
          rw [pow_succ]; omega)
        refine ⟨r, ?_, ?_, ?_⟩
        · rw [genDefaultLoop, dif_pos ⟨ht, hpos⟩]
          rw [hk]
          simp only [Go.ok_bind]
          rw [← pow_succ]
          exact hr
        · intro u htu hu2
          rcases Nat.eq_or_lt_of_le htu with rfl | hlt
          · refine ⟨k, hk, hidx, ?_⟩
            rw [ho sk.id (2 ^ t) (Or.inr fun u' h1 _ h3 => ?_), RotationKeySet.get2_add,
              if_pos ⟨hkid.symm, hidx.symm⟩]
            have := Nat.pow_right_injective (le_refl 2) h3
            omega
          · exact hu u hlt hu2
        · intro id idx h
          rw [ho id idx (h.imp_right fun h u h1 h2 => h u (by omega) h2),
            RotationKeySet.get2_add, if_neg]
          rintro ⟨h1, h2⟩
          rcases h with h | h
          · exact h (h1.trans hkid)
          · exact h t le_rfl ht (h2.trans hidx)
    · refine ⟨set, ?_, ?_, fun _ _ _ => rfl⟩
      · rw [genDefaultLoop, dif_neg (by omega)]
      · intro u hu hu2
        have := Nat.pow_le_pow_right (n := 2) (by norm_num) hu
        omega

/-- **C35/C25 (default rotation keys).** With the default CRS of `N = 2^logN`,
`GenDefaultRotationKeys` succeeds and registers, under the owner's id, the key of every power
of two below `N/2`, touching no other entry. -/
theorem C35_default_rotation_keys {logN : ℕ} (hN : C.N = 2 ^ logN) (sample : ℤ → SwKey C)
    (poolQ : RQ C) (e : ℕ → ℕ → Nega C.N ℤ) (sk : SecretKey C)
    (set : RotationKeySet (RotKey C)) :
    ∃ r, GenDefaultRotationKeys (newCRS logN sample) poolQ e sk set = .ok r ∧
      (∀ u, 2 ^ u < C.N / 2 → ∃ k,
        GenRotationKey (newCRS logN sample) poolQ (e (2 ^ u)) ((2 ^ u : ℕ) : ℤ) sk = .ok k ∧
        k.rotIdx = 2 ^ u ∧ r.get2 sk.id (2 ^ u) = some k) ∧
      (∀ id idx, (id ≠ sk.id ∨ ∀ u, 2 ^ u < C.N / 2 → idx ≠ 2 ^ u) →
        r.get2 id idx = set.get2 id idx) := by
  obtain ⟨r, h1, h2, h3⟩ := genDefaultLoop_spec (crs := newCRS logN sample) (poolQ := poolQ)
    (e := e) (sk := sk) (fun t ht => by
      rw [newCRS_keys]
      right
      refine ⟨t, ?_, by push_cast; rfl⟩
      rw [hN] at ht
      cases logN with
      | zero => simp at ht
      | succ l =>
        rw [pow_succ, Nat.mul_div_cancel _ (by norm_num)] at ht
        exact (Nat.pow_lt_pow_iff_right (by norm_num)).mp ht) (C.N / 2) 0 set (by omega)
  exact ⟨r, h1, fun u hu => h2 u (Nat.zero_le _) hu, fun id idx h =>
    h3 id idx (h.imp_right fun h u _ h2 => h u h2)⟩

end MK
