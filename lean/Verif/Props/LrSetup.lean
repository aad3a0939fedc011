import Verif.LrSetup
import Verif.Props.LrRun
import Verif.Props.History
import Verif.Props.CDec

/-!
# C50: the keys made by `genTestParams`

For every set of parties, every order of the loop over it and all samples within the bounds of the
samplers, `genTestParams` succeeds, every key satisfies its equation, and the keys are sufficient for
every multiplication and every rotation (`Setup`).
-/

noncomputable section

namespace MK.Lr

open Finset

variable {C : Ctx}

/-- The samples are within the samplers' bounds: ternary secrets, errors below `B`. -/
structure PartyRand.Ok (rnd : PartyRand C) (B : ℤ) : Prop where
  s : rnd.s.Bdd 1
  e : rnd.e.Bdd B
  r : rnd.r.Bdd 1
  eb : ∀ k, (rnd.eb k).Bdd B
  ed : ∀ k, (rnd.ed k).Bdd B
  ev : ∀ k, (rnd.ev k).Bdd B
  erot : ∀ t k, (rnd.erot t k).Bdd B

/-- The keys of party `id` in the key sets: each is registered under `id` and satisfies its defining
equation with the party's secret, the CRS, and errors below `B`. -/
structure PartyKeys (crs : CRS C) (rots : List ℤ) (kb : KeyBag C) (rnd : PartyRand C) (B : ℤ)
    (id : String) : Prop where
  sk : ∃ sk, kb.skSet.value.get? id = some sk ∧ sk.id = id ∧ IsSK sk rnd.s
  pk : ∃ pk, kb.pkSet.value.get? id = some pk ∧ pk.id = id ∧ IsPK pk rnd.s rnd.e
  rlk : ∃ rlk a u, crs.get? 0 = some a ∧ crs.get? (-1) = some u ∧
    kb.rlkSet.value.get? id = some rlk ∧ rlk.id = id ∧ SwEq rlk.b a rnd.s 0 rnd.eb ∧
    SwEq rlk.d a rnd.r rnd.s rnd.ed ∧ SwEq rlk.v u rnd.s (-rnd.r) (fun k => -rnd.ev k)
  rot : ∀ idx : ℕ, (idx : ℤ) ∈ rots → ∃ rk a e, crs.get? (idx : ℤ) = some a ∧
    kb.rtkSet.get2 id idx = some rk ∧ rk.id = id ∧ rk.rotIdx = idx ∧ (∀ k, (e k).Bdd B) ∧
    SwEq rk.value a (Nega.auto (galInv C.N (galCol C.N idx)) rnd.s) rnd.s e

theorem Bdd.small {e : Nega C.N ℤ} {B : ℤ} (h : e.Bdd B) (hB : 2 * B < C.q 0) : Small C e :=
  fun j => by have := h j; omega

theorem normRot_nonneg (half : ℕ) {r : ℤ} (h : 0 ≤ r) : normRot half r = r := by
  rw [normRot, if_neg (by omega)]

/-- The loop over the rotations. -/
theorem genRots_spec (hC : C.Good) {crs : CRS C} {rnd : PartyRand C} {B : ℤ} (hr : rnd.Ok B)
    (hB : 2 * B < C.q 0) {sk : SecretKey C} (hs : IsSK sk rnd.s) (l : List ℤ) :
    (∀ rot ∈ l, 0 ≤ rot ∧ crs.has rot = true) → ∀ (t : ℕ) (set : RotationKeySet (RotKey C)),
    ∃ set', genRots crs rnd sk t l set = .ok set' ∧
      (∀ idx : ℕ, (idx : ℤ) ∈ l → ∃ rk a e, crs.get? (idx : ℤ) = some a ∧
        set'.get2 sk.id idx = some rk ∧ rk.id = sk.id ∧ rk.rotIdx = idx ∧ (∀ k, Nega.Bdd (e k) B) ∧
        SwEq rk.value a (Nega.auto (galInv C.N (galCol C.N idx)) rnd.s) rnd.s e) ∧
      ∀ id idx, id ≠ sk.id ∨ ((idx : ℕ) : ℤ) ∉ l → set'.get2 id idx = set.get2 id idx := by
  induction l with
  | nil => exact fun _ t set => ⟨set, rfl, by simp, fun _ _ _ => rfl⟩
  | cons rot l ih =>
    intro hl t set
    obtain ⟨h0, hin⟩ := hl rot (by simp)
    obtain ⟨a, ha⟩ := GoMap.exists_get?_of_mem ((GoMap.has_iff _ _).mp hin)
    obtain ⟨rk, e1, hid, hidx, heq⟩ := C34_rotation_key hC hin
      (a := a) (by rw [normRot_nonneg _ h0]; exact ha) hs (fun k => Bdd.small (hr.erot t k) hB)
      (rnd.poolRot t)
    rw [normRot_nonneg _ h0] at hidx heq
    obtain ⟨set', e2, h1, h2⟩ := ih (fun r hr => hl r (List.mem_cons_of_mem _ hr)) (t + 1)
      (set.add RotKey.id RotKey.rotIdx rk)
    refine ⟨set', ?_, fun idx hi => ?_, fun id idx h => ?_⟩
    · rw [genRots, e1]
      exact e2
    · by_cases hm : (idx : ℤ) ∈ l
      · exact h1 idx hm
      · obtain rfl : (idx : ℤ) = rot := by simpa [hm] using hi
        rw [Int.toNat_natCast] at hidx heq
        exact ⟨rk, a, rnd.erot t, ha, by
          rw [h2 _ _ (Or.inr hm), RotationKeySet.get2_add, if_pos ⟨hid.symm, hidx.symm⟩], hid, hidx,
          hr.erot t, heq⟩
    · rw [h2 id idx (h.imp_right fun h h' => h (List.mem_cons_of_mem _ h')), RotationKeySet.get2_add,
        if_neg]
      rintro ⟨h3, h4⟩
      rcases h with h | h
      · exact h (h3.trans hid)
      · refine h (List.mem_cons.mpr (Or.inl ?_))
        rw [h4, hidx, Int.toNat_of_nonneg h0]

variable {crs : CRS C} {rots : List ℤ} {B : ℤ}

/-- What the CRS has to provide. -/
structure CrsFor (crs : CRS C) (rots : List ℤ) : Prop where
  zero : ∃ a, crs.get? 0 = some a ∧ (a 0).Q.len = C.nQ
  one : ∃ u, crs.get? (-1) = some u
  rots : ∀ rot ∈ rots, 0 ≤ rot ∧ crs.has rot = true

/-- The loop body: the keys of the party are made, those of the others stay. -/
theorem genParty_spec (hC : C.Good) (hq : 2 < C.q 0) (hB : 2 * B < C.q 0) (hcrs : CrsFor crs rots)
    {rnd : PartyRand C} (hr : rnd.Ok B) (id : String) (kb : KeyBag C) :
    ∃ kb', genParty crs rots rnd id kb = .ok kb' ∧ PartyKeys crs rots kb' rnd B id ∧
      (∀ rnd' id', id' ≠ id → PartyKeys crs rots kb rnd' B id' → PartyKeys crs rots kb' rnd' B id') ∧
      (KeyedById kb.skSet → KeyedById kb'.skSet) ∧ (RlkReach kb.rlkSet → RlkReach kb'.rlkSet) ∧
      ∀ i, i ∈ kb'.skSet.value.keys ↔ i = id ∨ i ∈ kb.skSet.value.keys := by
  obtain ⟨a, ha, halen⟩ := hcrs.zero
  obtain ⟨u, hu⟩ := hcrs.one
  obtain ⟨hsk, hskid⟩ := C34_secret_key hC (Bdd.small hr.s (by omega)) id
  obtain ⟨hrk, -⟩ := C34_secret_key hC (Bdd.small hr.r (by omega)) id
  obtain ⟨pk, e1, hpid, hpk⟩ := C34_public_key hC ha halen (Bdd.small hr.e hB) hsk
  obtain ⟨rlk, e2, hlid, hb, hd, hv⟩ := C34_relin_key hC ha hu hsk hrk
    (fun k => Bdd.small (hr.eb k) hB) (fun k => Bdd.small (hr.ed k) hB)
    (fun k => Bdd.small (hr.ev k) hB) rnd.poolQ rnd.poolQP
  obtain ⟨set, e3, h1, h2⟩ := genRots_spec hC hr hB hsk rots hcrs.rots 0 kb.rtkSet
  rw [hskid] at hpid hlid h1 h2
  refine ⟨⟨kb.skSet.add SecretKey.id (GenSecretKey rnd.s id), kb.pkSet.add PublicKey.id pk,
    kb.rlkSet.add RelinKey.id SwKey.new rlk, set⟩, ?_, ⟨?_, ?_, ?_, ?_⟩, fun rnd' id' hne hk =>
      ⟨?_, ?_, ?_, ?_⟩, ?_, fun h => .add h rlk, ?_⟩
  · unfold genParty GenKeyPair
    simp only [e1, e2, e3, Go.ok_bind, Go.pure_eq]
  · exact ⟨_, by simp [KeySet.add, hskid], hskid, hsk⟩
  · exact ⟨_, by simp [KeySet.add, hpid], hpid, hpk⟩
  · exact ⟨rlk, a, u, ha, hu, by simp [RelinKeySet.add, hlid], hlid, hb, hd, hv⟩
  · exact h1
  · obtain ⟨x, hx⟩ := hk.sk
    exact ⟨x, by simpa [KeySet.add, GoMap.get?_set, hskid, hne] using hx⟩
  · obtain ⟨x, hx⟩ := hk.pk
    exact ⟨x, by simpa [KeySet.add, GoMap.get?_set, hpid, hne] using hx⟩
  · obtain ⟨x, hx⟩ := hk.rlk
    exact ⟨x, by simpa [RelinKeySet.add, GoMap.get?_set, hlid, hne] using hx⟩
  · intro idx hi
    obtain ⟨x, a, e, g1, g2, g3⟩ := hk.rot idx hi
    exact ⟨x, a, e, g1, by rw [h2 id' idx (Or.inl hne)]; exact g2, g3⟩
  · exact fun h => h.add _
  · intro i
    simp [KeySet.add, GoMap.mem_keys_set, hskid]

/-- The loop over the parties, in any order. -/
theorem genParties_spec (hC : C.Good) (hq : 2 < C.q 0) (hB : 2 * B < C.q 0) (hcrs : CrsFor crs rots)
    {rnd : String → PartyRand C} (order : List String) (hr : ∀ id ∈ order, (rnd id).Ok B) :
    ∀ kb : KeyBag C, KeyedById kb.skSet → RlkReach kb.rlkSet →
    ∃ kb', genParties crs rots rnd order kb = .ok kb' ∧
      (∀ id, id ∈ order ∨ PartyKeys crs rots kb (rnd id) B id →
        PartyKeys crs rots kb' (rnd id) B id) ∧
      KeyedById kb'.skSet ∧ RlkReach kb'.rlkSet ∧
      ∀ i, i ∈ kb'.skSet.value.keys ↔ i ∈ order ∨ i ∈ kb.skSet.value.keys := by
  induction order with
  | nil => exact fun kb h1 h2 => ⟨kb, rfl, fun id h => by simpa using h, h1, h2, by simp⟩
  | cons id l ih =>
    intro kb h1 h2
    obtain ⟨kb₁, e1, g1, g2, g3, g4, g5⟩ := genParty_spec hC hq hB hcrs (hr id (by simp)) id kb
    obtain ⟨kb₂, e2, k1, k2, k3, k4⟩ := ih (fun i hi => hr i (List.mem_cons_of_mem _ hi)) kb₁ (g3 h1)
      (g4 h2)
    refine ⟨kb₂, ?_, fun i hi => ?_, k2, k3, fun i => ?_⟩
    · rw [genParties, e1]
      exact e2
    · refine k1 i ?_
      by_cases hl : i ∈ l
      · exact Or.inl hl
      · right
        by_cases hid : i = id
        · subst hid; exact g1
        · exact g2 _ i hid (by simpa [hid, hl] using hi)
    · rw [k4, g5, List.mem_cons]
      tauto

theorem addAllCRS_get? (sample : ℤ → SwKey C) (l : List ℤ) (crs : CRS C) (k : ℤ) :
    (addAllCRS crs sample l).get? k = if k ∈ l then some (sample k) else crs.get? k := by
  induction l generalizing crs with
  | nil => simp [addAllCRS]
  | cons a l ih =>
    rw [addAllCRS, ih, addCRS, GoMap.get?_set]
    by_cases h1 : k ∈ l <;> by_cases h2 : k = a <;> simp [h1, h2]

theorem crsLoop_get? (sample : ℤ → SwKey C) (l : List ℤ) (crs : CRS C) (k : ℤ) :
    (crsLoop sample crs l).get? k = if k ∈ l then some (sample k) else crs.get? k := by
  induction l generalizing crs with
  | nil => simp [crsLoop]
  | cons a l ih =>
    rw [crsLoop, ih, GoMap.get?_set]
    by_cases h1 : k ∈ l <;> by_cases h2 : k = a <;> simp [h1, h2]

/-- The CRS after `genTestParams`. -/
def setupCRS (logN : ℕ) (sample sample' : ℤ → SwKey C) : CRS C :=
  addAllCRS (newCRS logN sample) sample' lrRots

theorem setupCRS_get? (logN : ℕ) (sample sample' : ℤ → SwKey C) (k : ℤ) :
    (setupCRS logN sample sample').get? k = if k ∈ lrRots then some (sample' k) else
      if k ∈ crsIdxs logN then some (sample k) else none := by
  rw [setupCRS, addAllCRS_get?, newCRS, crsLoop_get?]
  simp

theorem setupCRS_has {logN : ℕ} {sample sample' : ℤ → SwKey C} {k : ℤ} (hk : 0 < k) :
    (setupCRS logN sample sample').has k = true ↔ k ∈ allRots logN := by
  rw [GoMap.has, setupCRS_get?, allRots, List.mem_append]
  by_cases h1 : k ∈ lrRots
  · simp [h1]
  · have : k ∈ crsIdxs logN ↔ k ∈ (List.range (logN - 1)).map fun i => ((2 ^ i : ℕ) : ℤ) := by
      rw [crsIdxs, List.mem_append, or_iff_right]
      simp only [List.mem_cons, List.not_mem_nil, or_false]
      omega
    rw [if_neg h1, ← this]
    by_cases h2 : k ∈ crsIdxs logN <;> simp only [h1, h2] <;> simp

theorem allRots_pos {logN : ℕ} {k : ℤ} (h : k ∈ allRots logN) : 0 < k := by
  rw [allRots, List.mem_append] at h
  rcases h with h | h
  · simp only [lrRots, List.mem_cons, List.not_mem_nil, or_false] at h
    omega
  · obtain ⟨i, -, rfl⟩ := List.mem_map.mp h
    positivity

theorem setupCRS_for {logN : ℕ} {sample sample' : ℤ → SwKey C}
    (h0 : ((sample 0) 0).Q.len = C.nQ) : CrsFor (setupCRS logN sample sample') (allRots logN) where
  zero := ⟨sample 0, by rw [setupCRS_get?]; simp [lrRots, crsIdxs], h0⟩
  one := ⟨sample (-1), by rw [setupCRS_get?]; simp [lrRots, crsIdxs]⟩
  rots rot h := ⟨(allRots_pos h).le, (setupCRS_has (allRots_pos h)).mpr h⟩

/-- The relinearization key registered under `id`. -/
def KeyBag.rk (kb : KeyBag C) (id : String) : RelinKey C :=
  match kb.rlkSet.value.get? id with
  | some k => k
  | none => ⟨id, SwKey.new, SwKey.new, SwKey.new⟩

/-- The evaluator's state at the start of `main`. -/
def Mach.start (kb : KeyBag C) : Mach C := ⟨Ev.new, kb.rlkSet, 0, []⟩

set_option linter.constructorNameAsVariable false in
/-- The indices that a rotation needs are among those for which keys are made. -/
theorem rotNeeds_allRots {logN : ℕ} (hN : C.N = 2 ^ logN) (hlog : 1 ≤ logN)
    {sample sample' : ℤ → SwKey C} {k : ℤ} {idx : ℕ}
    (h : rotNeeds (setupCRS logN sample sample') (slotIdx C.N k) idx) : (idx : ℤ) ∈ allRots logN := by
  have hh := half_pos hN hlog
  have hhalf : C.N / 2 = 2 ^ (logN - 1) := by
    obtain ⟨m, rfl⟩ : ∃ m, logN = m + 1 := ⟨logN - 1, by omega⟩
    rw [hN, pow_succ, Nat.mul_div_cancel _ (by norm_num), Nat.add_sub_cancel]
  have hlt := slotIdx_lt hh k
  obtain ⟨h0, hidx⟩ := h
  split at hidx
  · rename_i hc
    subst hidx
    exact (setupCRS_has (by exact_mod_cast Nat.pos_of_ne_zero h0)).mp hc
  · obtain ⟨b, hb, rfl⟩ := hidx
    have := Nat.ge_two_pow_of_testBit hb
    rw [hhalf] at hlt
    have hb' := (Nat.pow_lt_pow_iff_right (by norm_num)).mp (lt_of_le_of_lt this hlt)
    rw [allRots, List.mem_append]
    exact Or.inr (List.mem_map.mpr ⟨b, List.mem_range.mpr hb', rfl⟩)

variable {D : ℤ}

/-- **C50.** For every set of parties, in any order of the loop over it, and for all samples within
the samplers' bounds, `genTestParams` succeeds; under each party's id, and only there, it has
registered a secret key, a public key, a relinearization key and a rotation key for each index of
the list, each satisfying its defining equation; and the keys suffice for every multiplication
and every rotation by any integer (`Setup`, `Mach.Ok`). -/
theorem C50_genTestParams (hC : C.Good) (hF : C.Fits) {logN : ℕ} (hN : C.N = 2 ^ logN)
    (hlog : 1 ≤ logN) {prm : CPar C} (hfl : prm.fl.Ok) (hsc : 0 < prm.scale)
    {sample sample' : ℤ → SwKey C} (hlen : ((sample 0) 0).Q.len = C.nQ)
    (hcrs : prm.crs = setupCRS logN sample sample') (hq : 2 < C.q 0) (hB0 : 0 ≤ B)
    (hB : 2 * B < C.q 0) (hD0 : 0 ≤ D) (hD : digitMax C D) {rnd : String → PartyRand C}
    (order : List String) (hr : ∀ id ∈ order, (rnd id).Ok B) :
    ∃ kb, genTestParams logN (newCRS logN sample) sample' rnd order = .ok (prm.crs, kb) ∧
      (∀ id ∈ order, PartyKeys prm.crs (allRots logN) kb (rnd id) B id) ∧
      KeyedById kb.skSet ∧ (∀ id, id ∈ kb.skSet.value.keys ↔ id ∈ order) ∧
      Setup prm (C.N / 2) order.toFinset kb.rtkSet kb.rk (fun id => (rnd id).s) D 1 B ∧
      (Mach.start kb).Ok order.toFinset kb.rk := by
  have hfor : CrsFor prm.crs (allRots logN) := by rw [hcrs]; exact setupCRS_for hlen
  obtain ⟨kb, e, h1, h2, h3, h4⟩ := genParties_spec hC hq hB hfor order hr KeyBag.new keyedById_new .new
  have hk : ∀ id ∈ order, PartyKeys prm.crs (allRots logN) kb (rnd id) B id :=
    fun id hid => h1 id (Or.inl hid)
  obtain ⟨a, ha, -⟩ := hfor.zero
  obtain ⟨u, hu⟩ := hfor.one
  have hrk : ∀ id ∈ order, kb.rlkSet.value.get? id = some (kb.rk id) ∧
      SwEq (kb.rk id).b a (rnd id).s 0 (rnd id).eb ∧ SwEq (kb.rk id).d a (rnd id).r (rnd id).s (rnd id).ed ∧
      SwEq (kb.rk id).v u (rnd id).s (-(rnd id).r) (fun k => -(rnd id).ev k) := by
    intro id hid
    obtain ⟨rlk, a', u', ha', hu', hg, -, g⟩ := (hk id hid).rlk
    obtain rfl : a' = a := by rw [ha] at ha'; exact (Option.some.inj ha').symm
    obtain rfl : u' = u := by rw [hu] at hu'; exact (Option.some.inj hu').symm
    have : kb.rk id = rlk := by simp only [KeyBag.rk, hg]
    rw [this]
    exact ⟨hg, g⟩
  refine ⟨kb, ?_, hk, h2, fun id => ?_, ?_, ?_⟩
  · unfold genTestParams
    rw [hcrs] at e
    show (genParties (setupCRS logN sample sample') (allRots logN) rnd order KeyBag.new >>= _) = _
    rw [e, hcrs]
    rfl
  · rw [h4]; simp [KeyBag.new, KeySet.new, GoMap.keys, GoMap.empty]
  · refine ⟨rfl, ⟨logN, hN, hlog⟩, hC, hF, hfl, hsc, hD, hD0, by norm_num, hB0, ?_, ?_⟩
    · refine ⟨a, u, fun id => (rnd id).r, fun id => (rnd id).eb, fun id => (rnd id).ed,
        fun id => (rnd id).ev, hu, ⟨fun id hid => ?_, fun id hid => ?_, fun id hid => ?_⟩,
        ⟨fun id hid => ?_, fun id hid => ?_, fun id hid => ?_, fun id hid => ?_, fun id hid => ?_⟩⟩ <;>
        rw [List.mem_toFinset] at hid
      · exact (hrk id hid).2.1
      · exact (hrk id hid).2.2.1
      · exact (hrk id hid).2.2.2
      · exact (hr id hid).s
      · exact (hr id hid).r
      · exact (hr id hid).eb
      · exact (hr id hid).ed
      · exact (hr id hid).ev
    · refine ⟨fun idx id => match kb.rtkSet.get2 id idx with
          | some k => k
          | none => ⟨id, idx, SwKey.new⟩, fun idx => match prm.crs.get? (idx : ℤ) with
          | some a => a
          | none => SwKey.new, fun k idx hn => ?_⟩
      rw [hcrs] at hn
      have hidx := rotNeeds_allRots hN hlog hn
      obtain ⟨b, hb⟩ := GoMap.exists_get?_of_mem ((GoMap.has_iff _ _).mp (hfor.rots _ hidx).2)
      refine ⟨⟨by simp only [hb], fun id hid => ?_⟩, ⟨?_, fun id hid => ?_⟩⟩
      · obtain ⟨rk, -, -, -, g, -⟩ := (hk id (List.mem_toFinset.mp hid)).rot idx hidx
        simp only [g]
        exact RotationKeySet.get_of_get2 g
      · have : ∀ id, ∃ e : ℕ → Nega C.N ℤ, id ∈ order → (∀ k, (e k).Bdd B) ∧
            SwEq (match kb.rtkSet.get2 id idx with
              | some k => k
              | none => ⟨id, idx, SwKey.new⟩).value b
              (Nega.auto (galInv C.N (galCol C.N idx)) (rnd id).s) (rnd id).s e := by
          intro id
          by_cases hid : id ∈ order
          · obtain ⟨rk, a', e, ha', g, -, -, he, g'⟩ := (hk id hid).rot idx hidx
            rw [hb] at ha'
            cases ha'
            exact ⟨e, fun _ => ⟨he, by simp only [g]; exact g'⟩⟩
          · exact ⟨fun _ => 0, fun h => absurd h hid⟩
        choose e he using this
        refine ⟨e, fun id hid => (he id (List.mem_toFinset.mp hid)).1, fun id hid => ?_⟩
        have := (he id (List.mem_toFinset.mp hid)).2
        simp only [hb]
        exact this
      · exact (hr id (List.mem_toFinset.mp hid)).s
  · exact ⟨C28_ev_reach_ok .new, h3.rlkFor fun id hid => (hrk id (List.mem_toFinset.mp hid)).1,
      fun e he => by simp [Mach.start] at he⟩

end MK.Lr
