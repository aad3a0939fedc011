import Verif.EncDec
import Verif.Props.Sets
import Mathlib.Algebra.BigOperators.Group.Finset.Piecewise

/-!
# C07 – C10: ciphertext structure, encryption and (distributed) decryption
-/

noncomputable section

namespace MK

variable {C : Ctx}

/-! ## C07 -/

/-- **C07 (participants of a new ciphertext).** `NewCiphertext(idset).IDSet()` has exactly the
identifiers of `idset`, for every iteration order; it decrypts to zero under all keys. -/
theorem C07_new_ciphertext {s : IDSet} (hs : "0" ∉ GoMap.keys s) (L : ℕ) {o o' : List String}
    (ho : GoMap.IsOrder s o) (ho' : (Ct.new L o : Ct C).value.IsOrder o') :
    ∃ r, (Ct.new L o : Ct C).IDSet o' = .ok r ∧ (∀ v, r.Has v = s.Has v) ∧
      (Ct.new L o : Ct C).Level = .ok L ∧
      ∀ sec i, (Ct.new L o : Ct C).phase sec i = 0 := by
  obtain ⟨r, hr, _, hm⟩ := Ct.IDSet_spec (Ct.new L o : Ct C) ho'
  refine ⟨r, hr, fun v => ?_, (Ct.new_wf L o).level, fun sec i => ?_⟩
  · rw [Bool.eq_iff_iff]
    unfold IDSet.Has
    rw [GoMap.has_iff, GoMap.has_iff, hm, ← ho.mem, ← GoMap.has_iff, GoMap.has, Ct.new_get?]
    by_cases h1 : v ∈ o
    · have : v ≠ "0" := fun h => hs (h ▸ ho.mem.mp h1)
      simp [h1, this]
    · by_cases h2 : v = "0"
      · subst h2; simp [h1]
      · simp [h1, h2]
  · refine Finset.sum_eq_zero fun id hid => ?_
    have : (Ct.new L o : Ct C).comp id i = 0 := by
      unfold Ct.comp
      rw [Ct.new_get?]
      split
      · rename_i p heq
        split at heq
        · cases heq; rfl
        · cases heq
      · rfl
    rw [this, zero_mul]

/-- **C07 (copy).** `CopyNew` succeeds on every ciphertext with a constant component, in every
iteration order, and the copy is indistinguishable: same lookups, same level, same phase. -/
theorem C07_copy (ct : Ct C) (h0 : "0" ∈ ct.value.keys) {o : List String}
    (ho : ct.value.IsOrder o) :
    ∃ r, ct.CopyNew o = .ok r ∧ (∀ id, r.value.get? id = ct.value.get? id) ∧
      r.Level = ct.Level ∧ ∀ s i, r.phase s i = ct.phase s i := by
  obtain ⟨r, hr, _, hg⟩ := Ct.CopyNew_spec ct h0 ho
  refine ⟨r, hr, hg, ?_, fun s i => Ct.phase_congr s i fun id => ?_⟩
  · simp only [Ct.Level, GoMap.deref, hg]
  · simp only [Ct.comp, hg]

/-- **C07 (padding).** For every id set `t` without `"0"` and every iteration order,
`PadCiphertext(t)` succeeds, the participants become the union, level and NTT flag are kept and
the phase is unchanged under all secret keys. -/
theorem C07_pad {ct : Ct C} {L : ℕ} {b : Bool} (hw : ct.Wf L b) {t : IDSet}
    (ht : "0" ∉ GoMap.keys t) {oEl o : List String} (hoEl : ct.value.IsOrder oEl)
    (ho : GoMap.IsOrder t o) :
    ∃ r, ct.PadCiphertext oEl o = .ok r ∧ r.Wf L b ∧
      (∀ v, v ∈ r.value.keys ↔ v ∈ ct.value.keys ∨ v ∈ GoMap.keys t) ∧
      ∀ s i, r.phase s i = ct.phase s i := by
  obtain ⟨ids, hids, _, hm⟩ := Ct.IDSet_spec ct hoEl
  obtain ⟨c0, hc0⟩ := GoMap.exists_get?_of_mem hw.zero_mem
  have hhas : ∀ v, v ≠ "0" → (ids.Has v = false ↔ v ∉ ct.value.keys) := by
    intro v hv
    have : ids.Has v = true ↔ v ∈ ct.value.keys := by
      unfold IDSet.Has; rw [GoMap.has_iff, hm]; exact ⟨fun h => h.1, fun h => ⟨h, hv⟩⟩
    rw [← this]; simp
  set r : Ct C := ⟨Ct.padLoop ids (L + 1) c0.isNTT ct.value o⟩ with hr
  have hget : ∀ id, r.value.get? id = if id ∈ GoMap.keys t ∧ id ∉ ct.value.keys then
      some ({ RPoly.new (L + 1) with isNTT := c0.isNTT } : RQ C) else ct.value.get? id := by
    intro id
    rw [hr]
    simp only [Ct.padLoop_get?]
    by_cases h1 : id ∈ o
    · have h1' := ho.mem.mp h1
      have : id ≠ "0" := fun h => ht (h ▸ h1')
      simp only [h1, h1', true_and, hhas id this]
    · have h1' : id ∉ GoMap.keys t := fun h => h1 (ho.mem.mpr h)
      simp [h1, h1']
  refine ⟨r, ?_, ⟨Ct.padLoop_wf _ _ _ _ _ hw.wf, ?_, ?_, ?_⟩, ?_, ?_⟩
  · unfold Ct.PadCiphertext
    rw [GoMap.deref_of_get? hc0, hids, hw.level]; rfl
  · rw [← GoMap.has_iff, GoMap.has, hget, if_neg (fun h => ht h.1), hc0]; rfl
  · intro id p hp
    rw [hget] at hp
    split at hp
    · cases hp; rfl
    · exact hw.len _ _ hp
  · intro id p hp
    rw [hget] at hp
    split at hp
    · cases hp; exact hw.ntt "0" c0 hc0
    · exact hw.ntt _ _ hp
  · intro v
    rw [← GoMap.has_iff, GoMap.has, hget]
    by_cases h1 : v ∈ GoMap.keys t
    · by_cases h2 : v ∈ ct.value.keys
      · obtain ⟨p, hp⟩ := GoMap.exists_get?_of_mem h2
        simp [h1, h2, hp]
      · simp [h1, h2]
    · rw [if_neg (fun h => h1 h.1)]
      have : (ct.value.get? v).isSome = true ↔ v ∈ ct.value.keys := GoMap.has_iff _ _
      rw [this]; simp [h1]
  · intro s i
    refine Ct.phase_congr s i fun id => ?_
    unfold Ct.comp
    rw [hget]
    split
    · rename_i p heq
      split at heq
      · rename_i h
        cases heq
        rw [(GoMap.get?_eq_none_iff _ _).mpr h.2]
        unfold RPoly.val
        split
        · exact map_zero (C.nttQ.equiv i).symm
        · rfl
      · rw [heq]
    · rename_i heq
      split at heq
      · cases heq
      · rw [heq]

/-! ## C10: partial decryption in any order -/

theorem partialDecrypt_phase {ct r : Ct C} {sk : SecretKey C} {s : String → Nega C.N ℤ} {i : ℕ}
    (h0 : sk.id ≠ "0") (hid : sk.id ∈ ct.value.keys) (hz : "0" ∈ ct.value.keys)
    (hk : ∀ k, k ∈ r.value.keys ↔ k ∈ ct.value.keys ∧ k ≠ sk.id)
    (hc : ∀ k i, k ≠ "0" → k ≠ sk.id → r.comp k i = ct.comp k i)
    (hv : r.comp "0" i = ct.comp "0" i + ct.comp sk.id i * Nega.red (C.q i) (s sk.id)) :
    r.phase s i = ct.phase s i := by
  rw [Ct.phase_eq_sum_of_subset r s i (S := ct.value.keys.toFinset) (fun k h => by
      simp only [List.mem_toFinset] at h ⊢; exact ((hk k).mp h).1), ← sub_eq_zero]
  unfold Ct.phase
  rw [← Finset.sum_sub_distrib, Finset.sum_eq_add "0" sk.id h0.symm]
  · have h1 : r.comp sk.id i = 0 := Ct.comp_of_not_mem (fun h => ((hk _).mp h).2 rfl) i
    simp only [hv, h1, Ct.secretOf, if_true, if_neg h0, map_one]
    ring
  · intro k _ hne
    rw [hc k i hne.1 hne.2, sub_self]
  · intro h; exact absurd (by simpa using hz) h
  · intro h; exact absurd (by simpa using hid) h

/-- Apply `PartialDecrypt` with a list of keys. -/
def partialAll (ct : Ct C) : List (SecretKey C) → Go (Ct C)
  | [] => .ok ct
  | sk :: l => do
    let ct ← PartialDecrypt ct sk
    partialAll ct l

theorem partialAll_spec (hC : C.Good) {L : ℕ} {b : Bool} (hL : L < C.nQ)
    (s : String → Nega C.N ℤ) (l : List (SecretKey C)) (ct : Ct C) (hw : ct.Ragged L b)
    (hnd : (l.map SecretKey.id).Nodup)
    (hl : ∀ sk ∈ l, sk.id ≠ "0" ∧ sk.id ∈ ct.value.keys ∧ IsSK sk (s sk.id)) :
    ∃ r, partialAll ct l = .ok r ∧ r.Ragged L b ∧
      (∀ k, k ∈ r.value.keys ↔ k ∈ ct.value.keys ∧ k ∉ l.map SecretKey.id) ∧
      (∀ k i, k ≠ "0" → k ∈ r.value.keys → r.comp k i = ct.comp k i) ∧
      (∀ i ≤ L, r.comp "0" i = ct.comp "0" i +
        (l.map fun sk => ct.comp sk.id i * Nega.red (C.q i) (s sk.id)).sum) ∧
      (∀ i ≤ L, r.phase s i = ct.phase s i) := by
  induction l generalizing ct with
  | nil => exact ⟨ct, rfl, hw, by simp, fun _ _ _ _ => rfl, by simp, fun _ _ => rfl⟩
  | cons sk l ih =>
    obtain ⟨h0, hid, hs⟩ := hl sk (by simp)
    obtain ⟨r1, hr1, hw1, hk1, hc1, hv1⟩ := partialDecrypt_ok hw h0 hid
    have hv1 := hv1 (s sk.id) hC hL hs
    simp only [List.map_cons, List.nodup_cons] at hnd
    have hne : ∀ sk' ∈ l, sk'.id ≠ sk.id := fun sk' h he =>
      hnd.1 (he ▸ List.mem_map_of_mem h)
    obtain ⟨r, hr, hwr, hkr, hcr, hvr, hpr⟩ := ih r1 hw1 hnd.2 (fun sk' h => by
      obtain ⟨a, b, c⟩ := hl sk' (by simp [h])
      exact ⟨a, (hk1 _).mpr ⟨b, hne sk' h⟩, c⟩)
    refine ⟨r, ?_, hwr, ?_, ?_, ?_, ?_⟩
    · simp only [partialAll, hr1, Go.ok_bind]; exact hr
    · intro k
      rw [hkr, hk1]
      simp only [List.map_cons, List.mem_cons, not_or]
      tauto
    · intro k i hk0 hk
      have := (hkr k).mp hk
      rw [hcr k i hk0 hk, hc1 k i hk0 ((hk1 k).mp this.1).2]
    · intro i hi
      rw [hvr i hi, hv1 i hi]
      have : (l.map fun sk' => r1.comp sk'.id i * Nega.red (C.q i) (s sk'.id)) =
          l.map fun sk' => ct.comp sk'.id i * Nega.red (C.q i) (s sk'.id) := by
        refine List.map_congr_left fun sk' h => ?_
        rw [hc1 sk'.id i (hl sk' (by simp [h])).1 (hne sk' h)]
      rw [this, List.map_cons, List.sum_cons]
      ring
    · intro i hi
      rw [hpr i hi]
      exact partialDecrypt_phase h0 hid hw.zero_mem hk1 hc1 (hv1 i hi)

/-- **C10.** Partial decryption by the holders of any list of distinct participants' keys, in
any order: it succeeds, removes exactly those participants, leaves the other components alone,
the constant component becomes `c_0 + Σ c_id s_id` over the list, and every permutation of the
list gives a ciphertext with the same participants and the same components. -/
theorem C10_partial_decrypt_order (hC : C.Good) {ct : Ct C} {L : ℕ} {b : Bool} (hw : ct.Ragged L b)
    (hL : L < C.nQ) (s : String → Nega C.N ℤ) {l l' : List (SecretKey C)} (hll : l.Perm l')
    (hnd : (l.map SecretKey.id).Nodup)
    (hl : ∀ sk ∈ l, sk.id ≠ "0" ∧ sk.id ∈ ct.value.keys ∧ IsSK sk (s sk.id)) :
    ∃ r r', partialAll ct l = .ok r ∧ partialAll ct l' = .ok r' ∧
      (∀ k, k ∈ r.value.keys ↔ k ∈ ct.value.keys ∧ k ∉ l.map SecretKey.id) ∧
      (∀ k, k ∈ r.value.keys ↔ k ∈ r'.value.keys) ∧
      (∀ k, ∀ i ≤ L, r.comp k i = r'.comp k i) ∧
      (∀ i ≤ L, r.comp "0" i = ct.comp "0" i +
        (l.map fun sk => ct.comp sk.id i * Nega.red (C.q i) (s sk.id)).sum) := by
  obtain ⟨r, hr, _, hk, hc, hv, _⟩ := partialAll_spec hC hL s l ct hw hnd hl
  obtain ⟨r', hr', _, hk', hc', hv', _⟩ := partialAll_spec hC hL s l' ct hw
    ((hll.map _).nodup_iff.mp hnd) (fun sk h => hl sk (hll.mem_iff.mpr h))
  have hkk : ∀ k, k ∈ r.value.keys ↔ k ∈ r'.value.keys := fun k => by
    rw [hk, hk', (hll.map SecretKey.id).mem_iff]
  refine ⟨r, r', hr, hr', hk, hkk, fun k i hi => ?_, hv⟩
  by_cases h0 : k = "0"
  · subst h0
    rw [hv i hi, hv' i hi, (hll.map _).sum_eq]
  · by_cases hm : k ∈ r.value.keys
    · rw [hc k i h0 hm, hc' k i h0 ((hkk k).mp hm)]
    · rw [Ct.comp_of_not_mem hm, Ct.comp_of_not_mem fun h => hm ((hkk k).mpr h)]

/-! ## C09: Decrypt -/

/-- The invariant of a secret-key set built with `AddSecretKey`: keys are stored under their
own identifier (follows from C04). -/
def KeyedById (skSet : KeySet (SecretKey C)) : Prop :=
  skSet.value.WF ∧ ∀ k sk, skSet.value.get? k = some sk → sk.id = k

theorem keyedById_new : KeyedById (KeySet.new : KeySet (SecretKey C)) :=
  ⟨GoMap.empty_wf, fun k sk h => by simp [KeySet.new] at h⟩

theorem KeyedById.add {s : KeySet (SecretKey C)} (h : KeyedById s) (k : SecretKey C) :
    KeyedById (s.add SecretKey.id k) := by
  refine ⟨h.1.set _ _, fun k' sk hk => ?_⟩
  simp only [KeySet.add, GoMap.get?_set] at hk
  split at hk
  · cases hk; exact Eq.symm ‹_›
  · exact h.2 _ _ hk

theorem KeyedById.del {s : KeySet (SecretKey C)} (h : KeyedById s) (id : String) :
    KeyedById (s.del id) := by
  refine ⟨h.1.del _, fun k' sk hk => ?_⟩
  simp only [KeySet.del, GoMap.get?_del] at hk
  split at hk
  · cases hk
  · exact h.2 _ _ hk

/-- Every key set obtained by a history of `AddSecretKey`/`DelSecretKey` satisfies the
invariant. -/
theorem keyedById_of_history (h : List (KeyCall (SecretKey C))) :
    KeyedById (runKeys SecretKey.id KeySet.new h) := by
  suffices ∀ s : KeySet (SecretKey C), KeyedById s → KeyedById (runKeys SecretKey.id s h) from
    this _ keyedById_new
  induction h with
  | nil => exact fun s hs => hs
  | cons c h ih =>
    intro s hs
    cases c with
    | add k => exact ih _ (hs.add k)
    | del id => exact ih _ (hs.del id)

theorem decryptLoop_spec {L : ℕ} {b : Bool} {skSet : KeySet (SecretKey C)}
    (hks : KeyedById skSet) (idset : IDSet) (o : List String) (hnd : o.Nodup)
    (ho : ∀ k ∈ o, k ∈ skSet.value.keys) (ct : Ct C) (hw : ct.Ragged L b)
    (h0 : idset.Has "0" = false)
    (hids : ∀ k ∈ o, idset.Has k = true → k ∈ ct.value.keys) :
    ∃ r, decryptLoop idset skSet ct o = .ok r ∧ r.Ragged L b ∧
      (∀ k, k ∈ r.value.keys ↔ k ∈ ct.value.keys ∧ ¬ (k ∈ o ∧ idset.Has k = true)) ∧
      (∀ s : String → Nega C.N ℤ, C.Good → L < C.nQ →
        (∀ k sk, idset.Has k = true → skSet.value.get? k = some sk → IsSK sk (s k)) →
        ∀ i ≤ L, r.phase s i = ct.phase s i) := by
  induction o generalizing ct with
  | nil => exact ⟨ct, rfl, hw, by simp, fun _ _ _ _ _ _ => rfl⟩
  | cons k o ih =>
    obtain ⟨sk, hsk⟩ := GoMap.exists_get?_of_mem (ho k (by simp))
    have hskid := hks.2 _ _ hsk
    have hnd' := List.nodup_cons.mp hnd
    by_cases hk : idset.Has k = true
    · have hne0 : sk.id ≠ "0" := by
        rw [hskid]; intro h; rw [h, h0] at hk; cases hk
      have hmem : sk.id ∈ ct.value.keys := by rw [hskid]; exact hids k (by simp) hk
      obtain ⟨r1, hr1, hw1, hk1, hc1, hv1⟩ := partialDecrypt_ok hw hne0 hmem
      obtain ⟨r, hr, hwr, hkr, hpr⟩ := ih hnd'.2 (fun k' h => ho k' (by simp [h])) r1 hw1
        (fun k' h h' => (hk1 k').mpr ⟨hids k' (by simp [h]) h', by
          rw [hskid]; rintro rfl; exact hnd'.1 h⟩)
      refine ⟨r, ?_, hwr, ?_, ?_⟩
      · simp only [decryptLoop, GoMap.deref_of_get? hsk, Go.ok_bind, hskid, hk, if_true, hr1]
        exact hr
      · intro k'
        rw [hkr, hk1, hskid]
        simp only [List.mem_cons]
        constructor
        · rintro ⟨⟨h1, h2⟩, h3⟩
          refine ⟨h1, ?_⟩
          rintro ⟨rfl | h4, h5⟩
          · exact h2 rfl
          · exact h3 ⟨h4, h5⟩
        · rintro ⟨h1, h2⟩
          exact ⟨⟨h1, fun h => h2 ⟨Or.inl h, h ▸ hk⟩⟩, fun h => h2 ⟨Or.inr h.1, h.2⟩⟩
      · intro s hC hL hs i hi
        rw [hpr s hC hL hs i hi]
        refine partialDecrypt_phase hne0 hmem hw.zero_mem hk1 hc1 ?_
        have := hv1 (s k) hC hL (hs k sk hk hsk) i hi
        rw [this, hskid]
    · obtain ⟨r, hr, hwr, hkr, hpr⟩ := ih hnd'.2 (fun k' h => ho k' (by simp [h])) ct hw
        (fun k' h h' => hids k' (by simp [h]) h')
      refine ⟨r, ?_, hwr, ?_, hpr⟩
      · simp only [decryptLoop, GoMap.deref_of_get? hsk, Go.ok_bind, hskid, if_neg hk]
        exact hr
      · intro k'
        rw [hkr]
        simp only [List.mem_cons]
        constructor
        · rintro ⟨h1, h2⟩
          refine ⟨h1, ?_⟩
          rintro ⟨rfl | h4, h5⟩
          · exact hk h5
          · exact h2 ⟨h4, h5⟩
        · rintro ⟨h1, h2⟩
          exact ⟨h1, fun h => h2 ⟨Or.inr h.1, h.2⟩⟩

/-- What `Decrypt` does up to the final check, for any ciphertext and key set. -/
theorem decrypt_core {ct : Ct C} {L : ℕ} {b : Bool} (hw : ct.Ragged L b)
    {skSet : KeySet (SecretKey C)} (hks : KeyedById skSet) {oC oI oS : List String}
    (hoC : ct.value.IsOrder oC) (hoI : ∀ r, ct.CopyNew oC = .ok r → r.value.IsOrder oI)
    (hoS : skSet.value.IsOrder oS) :
    ∃ r : Ct C, r.Ragged L b ∧
      (∀ k, k ∈ r.value.keys ↔ k = "0" ∨ (k ∈ ct.value.keys ∧ k ∉ skSet.value.keys)) ∧
      (∀ s : String → Nega C.N ℤ, C.Good → L < C.nQ →
        (∀ k sk, k ∈ ct.parties → skSet.value.get? k = some sk → IsSK sk (s k)) →
        ∀ i ≤ L, r.phase s i = ct.phase s i) ∧
      ∀ pt, Decrypt ct skSet pt oC oI oS =
        if r.value.size > 1 then .error (.msg "Cannot Decrypt: there is a missing secretkey")
        else do
          let c0 ← r.value.deref "0"
          return c0.copyLvl (min L pt.level) (pt.truncate (min L pt.level + 1)) := by
  obtain ⟨cp, hcp, hcpw, hg⟩ := Ct.CopyNew_spec ct hw.zero_mem hoC
  have hk : ∀ k, k ∈ cp.value.keys ↔ k ∈ ct.value.keys := Ct.mem_keys_congr hg
  have hwc : cp.Ragged L b := ⟨hcpw, (hk _).mpr hw.zero_mem, fun p h => hw.len0 p (hg _ ▸ h),
    fun id p h => hw.len id p (hg id ▸ h),
    fun id p h => hw.ntt id p (hg id ▸ h)⟩
  obtain ⟨ids, hids, _, hm⟩ := Ct.IDSet_spec cp (hoI cp hcp)
  have hhas : ∀ k, ids.Has k = true ↔ k ∈ ct.value.keys ∧ k ≠ "0" := fun k => by
    unfold IDSet.Has; rw [GoMap.has_iff, hm, hk]
  have h0 : ids.Has "0" = false := by
    rw [← Bool.not_eq_true, hhas]; simp
  obtain ⟨r, hr, hwr, hkr, hpr⟩ := decryptLoop_spec hks ids oS (hoS.nodup hks.1)
    (fun k h => hoS.mem.mp h) cp hwc h0 (fun k _ h => (hk k).mpr ((hhas k).mp h).1)
  refine ⟨r, hwr, ?_, ?_, ?_⟩
  · intro k
    rw [hkr, hk, hoS.mem, hhas]
    by_cases h0 : k = "0"
    · subst h0; simp [hw.zero_mem]
    · simp only [h0, ne_eq, not_false_eq_true, and_true, false_or]
      tauto
  · intro s hC hL hs i hi
    rw [hpr s hC hL (fun k sk h1 h2 => hs k sk (by
      have := (hhas k).mp h1
      simp [Ct.parties, this]) h2) i hi]
    exact Ct.phase_congr s i fun id => by simp only [Ct.comp, hg]
  · intro pt
    unfold Decrypt
    simp only [hw.level, Go.ok_bind, hcp, hids, hr]

/-- **C09 (success).** With a key set that holds a valid key of every participant — and any
other keys besides — `Decrypt` succeeds in every map order and the result is the phase: its
rows, read in the ciphertext's domain, are `c_0 + Σ c_id s_id` at every remaining modulus.
Since the phase only mentions the participants, unrelated keys have no influence. -/
theorem C09_decrypt_phase (hC : C.Good) {ct : Ct C} {L : ℕ} {b : Bool} (hw : ct.Ragged L b)
    (hL : L < C.nQ) {skSet : KeySet (SecretKey C)} (hks : KeyedById skSet)
    {s : String → Nega C.N ℤ}
    (hs : ∀ id ∈ ct.parties, ∃ sk, skSet.value.get? id = some sk ∧ IsSK sk (s id))
    {oC oI oS : List String} (hoC : ct.value.IsOrder oC)
    (hoI : ∀ r, ct.CopyNew oC = .ok r → r.value.IsOrder oI)
    (hoS : skSet.value.IsOrder oS) (pt : RQ C) :
    ∃ pt', Decrypt ct skSet pt oC oI oS = .ok pt' ∧ pt'.len = min L pt.level + 1 ∧
      pt'.isNTT = pt.isNTT ∧
      ∀ i ≤ min L pt.level, ({ pt' with isNTT := b } : RQ C).val C.nttQ i = ct.phase s i := by
  obtain ⟨r, hwr, hkr, hpr, hdec⟩ := decrypt_core hw hks hoC hoI hoS
  have hk0 : ∀ k, k ∈ r.value.keys ↔ k = "0" := by
    intro k
    rw [hkr]
    refine ⟨fun h => ?_, Or.inl⟩
    rcases h with h | ⟨h1, h2⟩
    · exact h
    · by_contra h0
      obtain ⟨sk, hsk, _⟩ := hs k (by simp [Ct.parties, h0, h1])
      exact h2 (GoMap.mem_keys_of_get? hsk)
  have hfin : r.value.keys.toFinset = {"0"} := by
    ext k; simp [hk0]
  have hsize : r.value.size = 1 := by
    rw [GoMap.size_eq, ← List.toFinset_card_of_nodup hwr.wf, hfin]; rfl
  obtain ⟨c0, hc0⟩ := GoMap.exists_get?_of_mem hwr.zero_mem
  refine ⟨c0.copyLvl (min L pt.level) (pt.truncate (min L pt.level + 1)), ?_, rfl, rfl, ?_⟩
  · rw [hdec, if_neg (by omega), GoMap.deref_of_get? hc0]; rfl
  · intro i hi
    rw [← hpr s hC hL (fun k sk h1 h2 => by
      obtain ⟨sk', h3, h4⟩ := hs k h1
      rw [h3] at h2; cases h2; exact h4) i (le_trans hi (min_le_left _ _))]
    unfold Ct.phase
    rw [hfin, Finset.sum_singleton, Ct.comp_of_get? hc0]
    simp only [Ct.secretOf, if_true, map_one, mul_one]
    refine RPoly.val_congr _ (hwr.ntt _ _ hc0).symm ?_
    simp only [RPoly.copyLvl, RPoly.write_row_of_le _ _ hi]

/-- **C09 (failure).** `Decrypt` panics exactly when some participant's key is missing, whatever
the contents of the keys and the map orders. -/
theorem C09_decrypt_panics_iff {ct : Ct C} {L : ℕ} {b : Bool} (hw : ct.Ragged L b)
    {skSet : KeySet (SecretKey C)} (hks : KeyedById skSet) {oC oI oS : List String}
    (hoC : ct.value.IsOrder oC) (hoI : ∀ r, ct.CopyNew oC = .ok r → r.value.IsOrder oI)
    (hoS : skSet.value.IsOrder oS) (pt : RQ C) :
    Go.panics (Decrypt ct skSet pt oC oI oS) ↔ ∃ id ∈ ct.parties, id ∉ skSet.value.keys := by
  obtain ⟨r, hwr, hkr, -, hdec⟩ := decrypt_core hw hks hoC hoI hoS
  rw [hdec]
  obtain ⟨c0, hc0⟩ := GoMap.exists_get?_of_mem hwr.zero_mem
  have hcard : r.value.size = r.value.keys.toFinset.card := by
    rw [GoMap.size_eq, ← List.toFinset_card_of_nodup hwr.wf]
  constructor
  · intro h
    by_cases hs : r.value.size > 1
    · rw [hcard] at hs
      obtain ⟨k, hk, hk0⟩ := Finset.exists_mem_ne hs "0"
      have := (hkr k).mp (by simpa using hk)
      rcases this with h | ⟨h1, h2⟩
      · exact absurd h hk0
      · exact ⟨k, by simp [Ct.parties, hk0, h1], h2⟩
    · rw [if_neg hs, GoMap.deref_of_get? hc0] at h
      obtain ⟨e, he⟩ := h
      cases he
  · rintro ⟨id, hid, hid'⟩
    simp only [Ct.parties, Finset.mem_erase, List.mem_toFinset] at hid
    have : r.value.size > 1 := by
      rw [hcard]
      have : ({id, "0"} : Finset String) ⊆ r.value.keys.toFinset := by
        intro k hk
        simp only [Finset.mem_insert, Finset.mem_singleton] at hk
        simp only [List.mem_toFinset]
        rcases hk with rfl | rfl
        · exact (hkr _).mpr (Or.inr ⟨hid.2, hid'⟩)
        · exact hwr.zero_mem
      have h2 := Finset.card_le_card this
      rw [Finset.card_pair hid.1] at h2
      omega
    rw [if_pos this]
    exact ⟨_, rfl⟩

/-! ## C08: encryption -/

theorem encryptAdd_spec {l L : ℕ} (hl : l ≤ L) {b : Bool} (e0 e1 : Nega C.N ℤ) (pt pool c0 c1 : RQ C)
    (h0 : c0.isNTT = b) (h1 : c1.isNTT = b) {r : RQ C × RQ C × RQ C}
    (hr : r = encryptAdd l L b e0 e1 pt pool c0 c1) :
    r.2.1.isNTT = b ∧ r.2.2.isNTT = b ∧
    ∀ i ≤ l, r.2.1.val C.nttQ i = (C.nttQ.equiv i).symm (c0.row i) + Nega.red (C.q i) e0 +
        pt.val C.nttQ i ∧
      r.2.2.val C.nttQ i = (C.nttQ.equiv i).symm (c1.row i) + Nega.red (C.q i) e1 := by
  unfold encryptAdd at hr
  have hadd : ∀ {i : ℕ} (x : Nega C.N (ZMod (C.q i))) (y : Row C.N (C.q i)),
      (⟨x.coeff + y⟩ : Nega C.N (ZMod (C.q i))) = x + ⟨y⟩ := fun _ _ => rfl
  cases b
  · cases hp : pt.isNTT
    · simp only [hp, Bool.false_eq_true, if_false, Bool.not_false, if_true] at hr
      subst hr
      refine ⟨h0, h1, fun i hi => ⟨?_, ?_⟩⟩
      · rw [RPoly.val_addLvl _ hi rfl (by rw [hp]; exact h0.symm),
          RPoly.val_false _ (by exact h0)]
        simp only [RPoly.readAndAddLvl, RPoly.invNttLvl, RPoly.write_row_of_le _ _ hi,
          RPoly.write_row_of_le _ _ (hi.trans hl)]
        rfl
      · rw [RPoly.val_false _ (by exact h1)]
        simp only [RPoly.readAndAddLvl, RPoly.invNttLvl, RPoly.write_row_of_le _ _ hi,
          RPoly.write_row_of_le _ _ (hi.trans hl)]
        rfl
    · simp only [hp, Bool.false_eq_true, if_false, Bool.not_true] at hr
      subst hr
      refine ⟨h0, h1, fun i hi => ⟨?_, ?_⟩⟩
      · rw [RPoly.val_false _ (by exact h0), RPoly.val_true _ hp]
        simp only [RPoly.readAndAddLvl, RPoly.invNttLvl, RPoly.addLvl,
          RPoly.write_row_of_le _ _ hi,
          RPoly.write_row_of_le _ _ (hi.trans hl)]
        rfl
      · rw [RPoly.val_false _ (by exact h1)]
        simp only [RPoly.readAndAddLvl, RPoly.invNttLvl, RPoly.write_row_of_le _ _ hi,
          RPoly.write_row_of_le _ _ (hi.trans hl)]
        rfl
  · cases hp : pt.isNTT
    · simp only [hp, Bool.not_false, if_true] at hr
      subst hr
      refine ⟨h0, h1, fun i hi => ⟨?_, ?_⟩⟩
      · rw [RPoly.val_true _ (by exact h0), RPoly.val_false _ hp]
        simp only [RPoly.readLvl, RPoly.nttLvl, RPoly.addLvl, RPoly.write_row_of_le _ _ hi,
          map_add, RingEquiv.symm_apply_apply, add_assoc]
        rfl
      · rw [RPoly.val_true _ (by exact h1)]
        simp only [RPoly.readLvl, RPoly.nttLvl, RPoly.addLvl, RPoly.write_row_of_le _ _ hi,
          map_add, RingEquiv.symm_apply_apply]
    · simp only [hp, Bool.false_eq_true, if_false, if_true, Bool.not_true] at hr
      subst hr
      refine ⟨h0, h1, fun i hi => ⟨?_, ?_⟩⟩
      · rw [RPoly.val_true _ (by exact h0), RPoly.val_true _ hp]
        simp only [RPoly.readLvl, RPoly.nttLvl, RPoly.addLvl, RPoly.write_row_of_le _ _ hi,
          map_add, RingEquiv.symm_apply_apply]
      · rw [RPoly.val_true _ (by exact h1)]
        simp only [RPoly.readLvl, RPoly.nttLvl, RPoly.addLvl, RPoly.write_row_of_le _ _ hi,
          map_add, RingEquiv.symm_apply_apply]

/-- `Encrypt` fills the two components of the public key's owner: for all four combinations
of plaintext and ciphertext domain and all levels of both. -/
theorem encrypt_comps (hC : C.Good) {ct : Ct C} {L : ℕ} {b : Bool} (hw : ct.Wf L b)
    {pk : PublicKey C} (h0 : pk.id ≠ "0") (hid : pk.id ∈ ct.value.keys)
    (pool : RQ C) (u e0 e1 : Nega C.N ℤ) (pt : RQ C) {l : ℕ} (hl : l = min pt.level L) :
    ∃ pool' r, Encrypt pool u e0 e1 pt pk ct = .ok (pool', r) ∧ r.Ragged l b ∧
      (∀ k, k ∈ r.value.keys ↔ k ∈ ct.value.keys) ∧
      (∀ p, r.value.get? pk.id = some p → p.len = l + 1) ∧
      (∀ k, k ≠ "0" → k ≠ pk.id → r.value.get? k = ct.value.get? k) ∧
      (∀ i ≤ l, r.comp "0" i = Nega.red (C.q i) u * (C.nttQ.equiv i).symm (pk.value0.Q.row i) +
        Nega.red (C.q i) e0 + pt.val C.nttQ i) ∧
      (∀ i ≤ l, r.comp pk.id i =
        Nega.red (C.q i) u * (C.nttQ.equiv i).symm (pk.value1.Q.row i) +
        Nega.red (C.q i) e1) := by
  obtain ⟨c0, hc0⟩ := GoMap.exists_get?_of_mem hw.zero_mem
  obtain ⟨c1, hc1⟩ := GoMap.exists_get?_of_mem hid
  have hb0 := hw.ntt _ _ hc0
  have hb1 := hw.ntt _ _ hc1
  have hlL : l ≤ L := hl ▸ min_le_right _ _
  have hne : ("0" : String) ≠ pk.id := fun h => h0 h.symm
  have hd1 : ∀ x, (ct.value.set "0" x).deref pk.id = .ok c1 := fun x =>
    GoMap.deref_of_get? (by rw [GoMap.get?_set_of_ne _ _ h0, hc1])
  set pl := RPoly.mformLvl l ((pool.readLvl l u).nttLvl C.nttQ l (pool.readLvl l u))
    ((pool.readLvl l u).nttLvl C.nttQ l (pool.readLvl l u)) with hpl
  set x0 := RPoly.mulMontLvl l pl pk.value0.Q c0 with hx0
  set x1 := RPoly.mulMontLvl l pl pk.value1.Q c1 with hx1
  have hspec := encryptAdd_spec hlL (b := b) e0 e1 pt pl x0 x1 hb0 hb1 rfl
  have hplrow : ∀ i ≤ l, ∀ j, pl.row i j =
      (montR : ZMod (C.q i)) * C.nttQ.equiv i (Nega.red (C.q i) u) j := by
    intro i hi j
    simp only [hpl, RPoly.mformLvl, RPoly.nttLvl, RPoly.readLvl, RPoly.write_row_of_le _ _ hi]
  have hprod : ∀ i ≤ l, ∀ y : Row C.N (C.q i),
      (fun j => RPoly.mred (pl.row i j) (y j)) = C.nttQ.equiv i (Nega.red (C.q i) u) * y := by
    intro i hi y; funext j
    rw [hplrow i hi, RPoly.mred_mont (hC.oddQ i)]; rfl
  set r := encryptAdd l L b e0 e1 pt pl x0 x1 with hr
  have hlen : r.2.1.len = c0.len ∧ r.2.2.len = c1.len := by
    rw [hr]; unfold encryptAdd
    split <;> split <;> exact ⟨rfl, rfl⟩
  refine ⟨r.1, ⟨((ct.value.set "0" x0).set "0" (r.2.1.truncate (l + 1))).set pk.id
    (({ r.2.2 with isNTT := r.2.1.isNTT } : RQ C).truncate (l + 1))⟩, ?_, ?_, ?_, ?_, ?_, ?_, ?_⟩
  · unfold Encrypt
    simp only [hw.level, Go.ok_bind, GoMap.deref_of_get? hc0, hd1, ← hl, hb0]
    rfl
  · refine ⟨((hw.wf.set _ _).set _ _).set _ _, ?_, ?_, ?_, ?_⟩
    · simp [GoMap.mem_keys_set]
    · intro p hp
      simp only [GoMap.get?_set, if_neg hne, if_true] at hp
      cases hp; rfl
    · intro id p hp
      simp only [GoMap.get?_set] at hp
      split at hp
      · cases hp; exact le_rfl
      · split at hp
        · cases hp; exact le_rfl
        · have := hw.len _ _ hp; omega
    · intro id p hp
      simp only [GoMap.get?_set] at hp
      split at hp
      · cases hp; exact hspec.1
      · split at hp
        · cases hp; exact hspec.1
        · exact hw.ntt _ _ hp
  · intro k
    simp only [GoMap.mem_keys_set]
    constructor
    · rintro (rfl | rfl | rfl | h)
      exacts [hid, hw.zero_mem, hw.zero_mem, h]
    · exact fun h => Or.inr (Or.inr (Or.inr h))
  · intro p hp
    simp only [GoMap.get?_set, if_true] at hp
    cases hp; rfl
  · intro k hk0 hk1
    simp only [GoMap.get?_set, hk0, hk1, if_false]
  · intro i hi
    rw [Ct.comp_of_get? (p := r.2.1.truncate (l + 1)) (by
      simp only [GoMap.get?_set, if_neg hne, if_true])]
    refine (RPoly.val_congr (p := r.2.1.truncate (l + 1)) (p' := r.2.1) C.nttQ rfl rfl).trans ?_
    rw [(hspec.2.2 i hi).1, hx0]
    simp only [RPoly.mulMontLvl, RPoly.write_row_of_le _ _ hi]
    rw [hprod i hi, map_mul, RingEquiv.symm_apply_apply]
  · intro i hi
    rw [Ct.comp_of_get? (p := ({ r.2.2 with isNTT := r.2.1.isNTT } : RQ C).truncate (l + 1)) (by
      simp only [GoMap.get?_set, if_true])]
    refine (RPoly.val_congr (p := ({ r.2.2 with isNTT := r.2.1.isNTT } : RQ C).truncate (l + 1))
      (p' := r.2.2) C.nttQ (hspec.1.trans hspec.2.1.symm) rfl).trans ?_
    rw [(hspec.2.2 i hi).2, hx1]
    simp only [RPoly.mulMontLvl, RPoly.write_row_of_le _ _ hi]
    rw [hprod i hi, map_mul, RingEquiv.symm_apply_apply]

/-- **C08 (phase of an encryption).** For every plaintext (in either domain, of any level), every
domain and level of the ciphertext, every id set `o` that contains the owner of the key, every
previous content of the encryptor's scratch space and every sampled `u, e0, e1`: encrypting under a
public key with error `e` into a fresh ciphertext of `o` gives phase `m + (u·e + e0 + e1·s)` at every
modulus up to the smaller level.  The result is well formed unless the plaintext is of lower level
and `o` has further ids; then the components of these keep their rows (`Ragged`). -/
theorem C08_encrypt_phase (hC : C.Good) {pk : PublicKey C} {s e : Nega C.N ℤ} {o : List String}
    (ho : pk.id ∈ o) (h0 : "0" ∉ o) {L : ℕ} (hL : L < C.nQ) (hpk : IsPK pk s e) {ct : Ct C}
    {b : Bool} (hct : ct = if b then Ct.newNTT L o else Ct.new L o)
    (pool : RQ C) (u e0 e1 : Nega C.N ℤ) (pt : RQ C) :
    ∃ pool' r, Encrypt pool u e0 e1 pt pk ct = .ok (pool', r) ∧ r.Ragged (min pt.level L) b ∧
      (L ≤ pt.level ∨ o.toFinset = {pk.id} → r.Wf (min pt.level L) b) ∧
      r.parties = o.toFinset ∧
      ∀ (sec : String → Nega C.N ℤ), sec pk.id = s → ∀ i ≤ min pt.level L,
        r.phase sec i = pt.val C.nttQ i + Nega.red (C.q i) (u * e + e0 + e1 * s) := by
  have hid0 : pk.id ≠ "0" := fun h => h0 (h ▸ ho)
  have hkeys : ∀ k, k ∈ ct.value.keys ↔ k ∈ o ∨ k = "0" := by
    intro k
    have : k ∈ (Ct.new L o : Ct C).value.keys ↔ k ∈ o ∨ k = "0" := by
      rw [← GoMap.has_iff, GoMap.has, Ct.new_get?]
      by_cases h1 : k ∈ o <;> by_cases h2 : k = "0" <;> simp [h1, h2]
    rw [← this, hct]
    cases b <;> simp [Ct.newNTT]
  have hw : ct.Wf L b := by
    rw [hct]
    cases b
    · exact Ct.new_wf L _
    · exact Ct.newNTT_wf L _
  have hzero : ∀ k i, ct.comp k i = 0 := by
    intro k i
    unfold Ct.comp
    cases hg : ct.value.get? k with
    | none => rfl
    | some p =>
      have : ∀ i, p.row i = 0 := by
        intro i
        rw [hct] at hg
        cases b
        · simp only [Bool.false_eq_true, if_false, Ct.new_get?] at hg
          split at hg
          · cases hg; rfl
          · cases hg
        · simp only [if_true, Ct.newNTT, GoMap.get?_mapVals, Option.map_eq_some_iff,
            Ct.new_get?] at hg
          obtain ⟨p', hp', rfl⟩ := hg
          split at hp'
          · cases hp'; rfl
          · cases hp'
      show p.val C.nttQ i = 0
      unfold RPoly.val
      rw [this]
      split
      · exact map_zero (C.nttQ.equiv i).symm
      · rfl
  obtain ⟨pool', r, hr, hwr, hk, hkl, hoth, hc0, hc1⟩ := encrypt_comps hC hw hid0
    ((hkeys _).mpr (Or.inl ho)) pool u e0 e1 pt rfl
  refine ⟨pool', r, hr, hwr, fun hcase => ?_, ?_, ?_⟩
  · refine ⟨hwr.wf, hwr.zero_mem, fun id p hp => ?_, hwr.ntt⟩
    by_cases hi0 : id = "0"
    · subst hi0; exact hwr.len0 p hp
    · by_cases hi1 : id = pk.id
      · subst hi1; exact hkl p hp
      · rcases hcase with hcase | hcase
        · rw [hoth id hi0 hi1] at hp
          rw [min_eq_right hcase]
          exact hw.len _ _ hp
        · have := (hkeys id).mp ((hk id).mp (GoMap.mem_keys_of_get? hp))
          rcases this with h | h
          · rw [← List.mem_toFinset, hcase, Finset.mem_singleton] at h
            exact absurd h hi1
          · exact absurd h hi0
  · ext k
    unfold Ct.parties
    simp only [Finset.mem_erase, List.mem_toFinset, hk, hkeys]
    constructor
    · rintro ⟨h1, h2 | h2⟩
      · exact h2
      · exact absurd h2 h1
    · exact fun h => ⟨fun h' => h0 (h' ▸ h), Or.inl h⟩
  · intro sec hsec i hi
    have hsub : ({"0", pk.id} : Finset String) ⊆ r.value.keys.toFinset := by
      intro k hk'
      simp only [Finset.mem_insert, Finset.mem_singleton] at hk'
      rw [List.mem_toFinset, hk, hkeys]
      rcases hk' with rfl | rfl
      · exact Or.inr rfl
      · exact Or.inl ho
    unfold Ct.phase
    rw [← Finset.sum_subset hsub (fun k _ hk' => by
        simp only [Finset.mem_insert, Finset.mem_singleton, not_or] at hk'
        have : r.comp k i = ct.comp k i := by
          unfold Ct.comp; rw [hoth k hk'.1 hk'.2]
        rw [this, hzero, zero_mul]),
      Finset.sum_pair (fun h => hid0 h.symm), hc0 i hi, hc1 i hi]
    simp only [Ct.secretOf, if_true, if_neg hid0, map_one, mul_one, hsec, map_add, map_mul]
    have := hpk i (by omega)
    rw [← this]
    ring

/-- **C08 (encryption error).** For every plaintext (in either domain, of any level), every domain
and level of the ciphertext, every id set `o` that contains the owner of the key, every previous
content of the encryptor's scratch space and every sampled `u, e0, e1`: encrypting under a public
key with error `e` into a fresh ciphertext of `o` gives phase `m + w` at every modulus up to the
smaller level, with `w = u·e + e0 + e1·s`, an integer polynomial with coefficients bounded by
`(2N+1)·B` when `e, e0, e1` are bounded by `B` and `u, s` are ternary.  The result is well formed
unless the plaintext is of lower level and `o` has further ids; then the components of these keep
their rows (`Ragged`). -/
theorem C08_encrypt_noise (hC : C.Good) {pk : PublicKey C} {s e : Nega C.N ℤ} {o : List String}
    (ho : pk.id ∈ o) (h0 : "0" ∉ o) {L : ℕ} (hL : L < C.nQ) (hpk : IsPK pk s e) {ct : Ct C}
    {b : Bool} (hct : ct = if b then Ct.newNTT L o else Ct.new L o)
    (pool : RQ C) (u e0 e1 : Nega C.N ℤ) (pt : RQ C) {B : ℤ}
    (hu : u.Bdd 1) (hs : s.Bdd 1) (he : e.Bdd B) (he0 : e0.Bdd B) (he1 : e1.Bdd B) :
    ∃ pool' r w, Encrypt pool u e0 e1 pt pk ct = .ok (pool', r) ∧ r.Ragged (min pt.level L) b ∧
      (L ≤ pt.level ∨ o.toFinset = {pk.id} → r.Wf (min pt.level L) b) ∧
      r.parties = o.toFinset ∧ Nega.Bdd w ((2 * C.N + 1) * B) ∧
      ∀ (sec : String → Nega C.N ℤ), sec pk.id = s → ∀ i ≤ min pt.level L,
        r.phase sec i = pt.val C.nttQ i + Nega.red (C.q i) w := by
  obtain ⟨pool', r, h1, h2, h3, h4, h5⟩ := C08_encrypt_phase hC ho h0 hL hpk hct pool u e0 e1 pt
  refine ⟨pool', r, _, h1, h2, h3, h4, ?_, h5⟩
  have := ((hu.mul he).add he0).add (he1.mul hs)
  refine this.mono (le_of_eq ?_)
  ring

/-- **C08 (round trip).** `Decrypt(Encrypt(m)) = m + w` for every plaintext, every id set that
contains the key's owner and whose secret keys are all supplied, all levels and both domains. -/
theorem C08_round_trip (hC : C.Good) {pk : PublicKey C} {s : String → Nega C.N ℤ} {e : Nega C.N ℤ}
    {o : List String} (ho : pk.id ∈ o) (h0 : "0" ∉ o) {L : ℕ} (hL : L < C.nQ)
    (hpk : IsPK pk (s pk.id) e) {b : Bool}
    (pool : RQ C) (u e0 e1 : Nega C.N ℤ) (pt : RQ C) {B : ℤ}
    (hu : u.Bdd 1) (hs : (s pk.id).Bdd 1) (he : e.Bdd B) (he0 : e0.Bdd B) (he1 : e1.Bdd B)
    {skSet : KeySet (SecretKey C)} (hks : KeyedById skSet)
    (hsk : ∀ id ∈ o, ∃ sk, skSet.value.get? id = some sk ∧ IsSK sk (s id)) (out : RQ C) :
    ∃ pool' r w, Encrypt pool u e0 e1 pt pk (if b then Ct.newNTT L o else Ct.new L o) =
        .ok (pool', r) ∧ Nega.Bdd w ((2 * C.N + 1) * B) ∧
      ∀ oC oI oS, r.value.IsOrder oC → (∀ c, r.CopyNew oC = .ok c → c.value.IsOrder oI) →
        skSet.value.IsOrder oS →
        ∃ m', Decrypt r skSet out oC oI oS = .ok m' ∧
          ∀ i ≤ min (min pt.level L) out.level, ({ m' with isNTT := b } : RQ C).val C.nttQ i =
            pt.val C.nttQ i + Nega.red (C.q i) w := by
  obtain ⟨pool', r, w, h1, h2, _, h3, h4, h5⟩ := C08_encrypt_noise hC ho h0 hL hpk
    (ct := if b then Ct.newNTT L o else Ct.new L o) rfl pool u e0 e1 pt hu hs he he0 he1
  refine ⟨pool', r, w, h1, h4, fun oC oI oS hoC hoI hoS => ?_⟩
  obtain ⟨m', q1, _, _, q2⟩ := C09_decrypt_phase hC h2 (lt_of_le_of_lt (min_le_right _ _) hL) hks
    (s := s) (fun id hid => hsk id (by rw [h3, List.mem_toFinset] at hid; exact hid)) hoC hoI hoS
    out
  exact ⟨m', q1, fun i hi => by rw [q2 i hi, h5 s rfl i (hi.trans (min_le_left _ _))]⟩

end MK
