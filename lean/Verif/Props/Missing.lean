import Verif.Props.EvRot
import Verif.Props.EvMul
import Verif.Props.History

/-!
# Exactly which keys rotations and conjugations need (C73)

For well-formed ciphertexts `RotateNew`, `RotateHoistedNew` and `ConjugateNew` return a result if and
only if the keys of all participants and the entries of the common reference string they need are
there.
-/

noncomputable section

namespace MK

open Finset

variable {C : Ctx}

/-- Participant `id` can be key-switched with index `idx`: it has a rotation key and the common
reference string has the index. -/
def RotHas (crs : CRS C) (rkSet : RotationKeySet (RotKey C)) (id : String) (idx : ℕ) : Prop :=
  (∃ a, crs.get? (idx : ℤ) = some a) ∧ ∃ key, rkSet.get id idx = .ok key

theorem Go.Post.of_not_ok {α : Type _} {x : Go α} (h : ¬ ∃ a, x = .ok a) :
    Go.Post x fun _ => False := fun a ha => h ⟨a, ha⟩

theorem deref_never {K V : Type _} [DecidableEq K] {m : GoMap K V} {k : K} (h : m.get? k = none) :
    Go.Post (m.deref k) fun _ => False := by
  obtain ⟨e, he⟩ := (GoMap.deref_panics_iff m k).mpr h
  rw [he]; exact Go.Post.error

/-- The key-switching loop never gets past a participant without key. -/
theorem rotCore_never {extp : ℕ → KS C → String → SwKey C → RQ C → Go (KS C × RQ C)}
    {crs : CRS C} (ks : KS C) {ctIn : Ct C} {idx : ℕ} {rkSet : RotationKeySet (RotKey C)}
    (ctOut : Ct C) {o : RotOrd} {id : String} (hid : id ∈ o.k) (hk : ¬ RotHas crs rkSet id idx) :
    Go.Post (ks.rotCore extp crs ctIn idx rkSet ctOut o) fun _ => False := by
  unfold KS.rotCore
  refine Go.Post.bind' fun l => Go.Post.bind' fun _ => Go.Post.bind' fun l0 => ?_
  split
  · exact Go.Post.error
  refine Go.Post.bind' fun _ => Go.Post.bind' fun _ => ?_
  refine Go.Post.bind (forEach_never hid (fun s => ?_) _) fun _ h => h.elim
  unfold KS.rotStep
  rw [normRot_natCast, Int.toNat_natCast]
  by_cases hkey : ∃ key, rkSet.get id idx = .ok key
  · have hc : crs.get? (idx : ℤ) = none := by
      cases h : crs.get? (idx : ℤ) with
      | none => rfl
      | some a => exact absurd ⟨⟨a, h⟩, hkey⟩ hk
    refine Go.Post.bind' fun _ => Go.Post.bind' fun _ => Go.Post.bind' fun _ => ?_
    exact Go.Post.bind (deref_never hc) fun _ h => h.elim
  · exact Go.Post.bind (.of_not_ok hkey) fun _ h => h.elim

theorem KS.Rotate_never {crs : CRS C} (ks : KS C) {ctIn : Ct C} {idx : ℕ}
    {rkSet : RotationKeySet (RotKey C)} (ctOut : Ct C) {o : RotOrd} {id : String} (hid : id ∈ o.k)
    (hk : ¬ RotHas crs rkSet id idx) :
    Go.Post (ks.Rotate crs ctIn idx rkSet ctOut o) fun _ => False := rotCore_never ks ctOut hid hk

theorem KS.RotateHoisted_never {crs : CRS C} (ks : KS C) {ctIn : Ct C} {idx : ℕ} {H : HoistedCt C}
    {rkSet : RotationKeySet (RotKey C)} (ctOut : Ct C) {o : RotOrd} {id : String} (hid : id ∈ o.k)
    (hk : ¬ RotHas crs rkSet id idx) :
    Go.Post (ks.RotateHoisted crs ctIn idx H rkSet ctOut o) fun _ => False :=
  rotCore_never ks ctOut hid hk

theorem mem_rotOrd {ct : Ct C} {id : String} (h : id ∈ ct.parties) (π : Sched) :
    id ∈ (π.rotOrd ct).k := by
  show id ∈ π.f 1 _
  rw [(π.perm 1 _).mem_iff, List.mem_filter]
  have := mem_parties.mp h
  exact ⟨this.1, by simpa using this.2⟩

theorem copyIntoLoop_keeps {ct : Ct C} {id : String} (o : List String) :
    ∀ el : GoMap String (RQ C), id ∈ el.keys →
      Go.Post (Ct.copyIntoLoop ct el o) fun m => id ∈ m.keys := by
  induction o with
  | nil => exact fun el h a ha => by cases ha; exact h
  | cons x o ih =>
    intro el h
    refine Go.Post.bind' fun _ => Go.Post.bind' fun _ => ih _ ?_
    rw [GoMap.mem_keys_set]
    exact Or.inr h

theorem Ct.Copy_keeps {el ct : Ct C} {id : String} (h : id ∈ el.parties) (o : List String) :
    Go.Post (el.Copy ct o) fun r => id ∈ r.parties :=
  Go.Post.bind (copyIntoLoop_keeps o _ (mem_parties.mp h).1) fun _ hm =>
    Go.Post.pure (mem_parties.mpr ⟨hm, (mem_parties.mp h).2⟩)

/-- The binary loop never gets past a set bit for which a participant has no key. -/
theorem rotBits_never {prm : CPar C} {rkSet : RotationKeySet (RotKey C)} (π : Sched) {id : String}
    (r : ℕ) : ∀ (p j b : ℕ) (ev : Ev C) (tmp out : Ct C), id ∈ tmp.parties → r.testBit b = true →
      ¬ RotHas prm.crs rkSet id (p * 2 ^ b) →
      Go.Post (Ev.rotBits prm rkSet π r p j (ev, tmp, out)) fun _ => False := by
  induction r using Nat.strong_induction_on with
  | _ r ih =>
    intro p j b ev tmp out hid hb hk
    rw [Ev.rotBits]
    have hr : 0 < r := by
      rcases Nat.eq_zero_or_pos r with rfl | h
      · simp at hb
      · exact h
    rw [if_pos hr]
    cases b with
    | zero =>
      have hodd : r % 2 ≠ 0 := by
        rw [Nat.testBit_zero] at hb
        simp at hb
        omega
      rw [if_pos hodd]
      rw [pow_zero, mul_one] at hk
      exact Go.Post.bind (KS.Rotate_never _ _ (mem_rotOrd hid _) hk) fun _ h => h.elim
    | succ b =>
      have hb' : (r / 2).testBit b = true := by rw [Nat.testBit_div_two]; exact hb
      have hk' : ¬ RotHas prm.crs rkSet id (p * 2 * 2 ^ b) := by
        rw [mul_assoc, ← pow_succ']; exact hk
      dsimp only
      split
      · refine Go.Post.bind' fun _ => Go.Post.bind (Ct.Copy_keeps hid _) fun t ht => ?_
        exact ih (r / 2) (by omega) (p * 2) (j + 1) b _ _ _ ht hb' hk'
      · exact ih (r / 2) (by omega) (p * 2) (j + 1) b _ _ _ hid hb' hk'

theorem copyLoop_keeps {ct : Ct C} {id : String} (o : List String) :
    ∀ m : GoMap String (RQ C), id ∈ m.keys ∨ id ∈ o →
      Go.Post (Ct.copyLoop ct m o) fun m => id ∈ m.keys := by
  induction o with
  | nil => exact fun el h a ha => by cases ha; simpa using h
  | cons x o ih =>
    intro m h
    refine Go.Post.bind' fun _ => ih _ ?_
    rw [GoMap.mem_keys_set]
    rcases h with h | h
    · exact Or.inl (Or.inr h)
    · rcases List.mem_cons.mp h with rfl | h
      · exact Or.inl (Or.inl rfl)
      · exact Or.inr h

theorem Ct.CopyNew_keeps {ct : Ct C} {id : String} (h : id ∈ ct.parties) (π : Sched) (n : ℕ) :
    Go.Post (ct.CopyNew (π.f n ct.value.keys)) fun r => id ∈ r.parties := by
  unfold Ct.CopyNew
  refine Go.Post.bind' fun _ => Go.Post.bind (copyLoop_keeps (id := id) _ _ (Or.inr ?_)) fun m hm =>
    Go.Post.pure (mem_parties.mpr ⟨hm, (mem_parties.mp h).2⟩)
  rw [(π.perm n _).mem_iff]
  exact (mem_parties.mp h).1

theorem rotate_never (hh : 0 < C.N / 2) {prm : CPar C} (ev : Ev C) {ct : CCt C} {k : ℤ}
    {rkSet : RotationKeySet (RotKey C)} {id : String} (hid : id ∈ ct.ct.parties) {idx : ℕ}
    (hn : rotNeeds prm.crs (slotIdx C.N k) idx) (hk : ¬ RotHas prm.crs rkSet id idx) (π : Sched) :
    Go.Post (ev.RotateNew prm ct k rkSet π) fun _ => False := by
  have hidx : normIdx (C.N / 2) k = (slotIdx C.N k : ℕ) := by
    rw [normIdx_eq hh, slotIdx_cast hh]
  unfold Ev.RotateNew
  refine Go.Post.bind' fun _ => Go.Post.bind' fun _ => ?_
  unfold Ev.rotate
  simp only [hidx]
  obtain ⟨h0, h1⟩ := hn
  rw [if_neg (by exact_mod_cast h0)]
  split_ifs at h1 ⊢ with hc
  · subst h1
    exact Go.Post.bind (KS.Rotate_never _ _ (mem_rotOrd hid _) hk) fun _ h => h.elim
  · obtain ⟨b, hb, rfl⟩ := h1
    refine Go.Post.bind (Q := fun t => id ∈ t.ct.parties) ?_ fun t ht => ?_
    · exact Go.Post.bind (Ct.CopyNew_keeps hid _ _) fun _ h => Go.Post.pure h
    · rw [Int.toNat_natCast]
      exact Go.Post.bind (rotBits_never _ _ 1 0 b ev _ _ ht hb (by rwa [one_mul])) fun _ h => h.elim

/-- **C73 (rotation without keys).** `RotateNew` panics whenever some participant lacks a key, or the
common reference string an entry, for an index the rotation uses: for every evaluator, ciphertext
(well-formed or not), key set and iteration order. -/
theorem C73_RotateNew_panics (hh : 0 < C.N / 2) {prm : CPar C} (ev : Ev C) {ct : CCt C} {k : ℤ}
    {rkSet : RotationKeySet (RotKey C)} {id : String} (hid : id ∈ ct.ct.parties) {idx : ℕ}
    (hn : rotNeeds prm.crs (slotIdx C.N k) idx) (hk : ¬ RotHas prm.crs rkSet id idx) (π : Sched) :
    (ev.RotateNew prm ct k rkSet π).panics :=
  Go.panics_of_post (rotate_never hh ev hid hn hk π)

/-- **C73 (what `RotateNew` needs).** On a well-formed ciphertext with a participant `RotateNew`
returns if and only if every participant has the keys of the indices the rotation uses, and the
common reference string has these indices. -/
theorem C73_RotateNew_iff {logN : ℕ} (hN : C.N = 2 ^ logN) (hlog : 1 ≤ logN) (hC : C.Good)
    {prm : CPar C} {ev : Ev C} (hok : ev.Ok) {ct : CCt C} {L : ℕ} (hL : L < C.nQ)
    (w : ct.ct.Wf L false) (hp : ct.ct.parties.Nonempty) (k : ℤ)
    (rkSet : RotationKeySet (RotKey C)) (π : Sched) :
    (∃ x, ev.RotateNew prm ct k rkSet π = .ok x) ↔
      ∀ id ∈ ct.ct.parties, ∀ idx, rotNeeds prm.crs (slotIdx C.N k) idx →
        RotHas prm.crs rkSet id idx := by
  constructor
  · rintro ⟨x, hx⟩ id hid idx hn
    by_contra hk
    exact rotate_never (half_pos hN hlog) ev hid hn hk π x hx
  · intro h
    obtain ⟨id0, hid0⟩ := hp
    obtain ⟨ev', r, e, -⟩ := rotateNew_spec hN hlog hC hok hL w k (rkSet := rkSet) (prm := prm)
      (rk := fun idx id => match rkSet.get id idx with | .ok key => key | .error _ => ⟨"", 0, SwKey.new⟩)
      (a := fun idx => (prm.crs.get? (idx : ℤ)).getD SwKey.new) (fun idx hn => by
        refine ⟨?_, fun id hid => ?_⟩
        · obtain ⟨⟨a, ha⟩, -⟩ := h id0 hid0 idx hn
          simp only [ha, Option.getD_some]
        · obtain ⟨-, key, hk⟩ := h id hid idx hn
          simp only [hk]) π
    exact ⟨_, e⟩

theorem rotateHoisted_never (hh : 0 < C.N / 2) {prm : CPar C} (ev : Ev C) {ct : CCt C} {k : ℤ}
    {H : HoistedCt C} {rkSet : RotationKeySet (RotKey C)} {id : String} (hid : id ∈ ct.ct.parties)
    (h0 : slotIdx C.N k ≠ 0) (hk : ¬ RotHas prm.crs rkSet id (slotIdx C.N k)) (π : Sched) :
    Go.Post (ev.RotateHoistedNew prm ct k H rkSet π) fun _ => False := by
  have hidx : normIdx (C.N / 2) k = (slotIdx C.N k : ℕ) := by
    rw [normIdx_eq hh, slotIdx_cast hh]
  unfold Ev.RotateHoistedNew
  refine Go.Post.bind' fun _ => Go.Post.bind' fun _ => ?_
  unfold Ev.rotateHoisted
  simp only [hidx]
  rw [if_neg (by exact_mod_cast h0)]
  split_ifs
  · exact Go.Post.bind (KS.RotateHoisted_never _ _ (mem_rotOrd hid _) hk) fun _ h => h.elim
  · exact Go.Post.error

/-- **C73 (hoisted rotation without keys).** `RotateHoistedNew` panics whenever a participant has no
key for the index modulo the number of slots, or the common reference string no entry. -/
theorem C73_RotateHoistedNew_panics (hh : 0 < C.N / 2) {prm : CPar C} (ev : Ev C) {ct : CCt C} {k : ℤ}
    {H : HoistedCt C} {rkSet : RotationKeySet (RotKey C)} {id : String} (hid : id ∈ ct.ct.parties)
    (h0 : slotIdx C.N k ≠ 0) (hk : ¬ RotHas prm.crs rkSet id (slotIdx C.N k)) (π : Sched) :
    (ev.RotateHoistedNew prm ct k H rkSet π).panics :=
  Go.panics_of_post (rotateHoisted_never hh ev hid h0 hk π)

/-- **C73 (what `RotateHoistedNew` needs).** With a valid hoisted form it returns if and only if the
index is a multiple of the number of slots, or every participant has the key of exactly this index
and the common reference string the index. -/
theorem C73_RotateHoistedNew_iff {logN : ℕ} (hN : C.N = 2 ^ logN) (hlog : 1 ≤ logN) (hC : C.Good)
    {prm : CPar C} {ev : Ev C} (hok : ev.Ok) {ct : CCt C} {L : ℕ} (hL : L < C.nQ)
    (w : ct.ct.Wf L false) (hp : ct.ct.parties.Nonempty) (k : ℤ) {H : HoistedCt C}
    (hH : IsHoisted L ct.ct H) (rkSet : RotationKeySet (RotKey C)) (π : Sched) :
    (∃ x, ev.RotateHoistedNew prm ct k H rkSet π = .ok x) ↔ ((C.N / 2 : ℕ) : ℤ) ∣ k ∨
      ∀ id ∈ ct.ct.parties, RotHas prm.crs rkSet id (slotIdx C.N k) := by
  have hh := half_pos hN hlog
  have hz : ((C.N / 2 : ℕ) : ℤ) ∣ k ↔ slotIdx C.N k = 0 := by
    rw [Int.dvd_iff_emod_eq_zero, ← slotIdx_cast hh]
    exact_mod_cast Iff.rfl
  rw [hz]
  constructor
  · rintro ⟨x, hx⟩
    by_contra hc
    push Not at hc
    obtain ⟨h0, id, hid, hk⟩ := hc
    exact rotateHoisted_never hh ev hid h0 hk π x hx
  · intro h
    obtain ⟨id0, hid0⟩ := hp
    obtain ⟨ev', r, e, -⟩ := rotateHoistedNew_spec hN hlog hC hok hL w k (rkSet := rkSet) (prm := prm)
      (rk := fun idx id => match rkSet.get id idx with | .ok key => key | .error _ => ⟨"", 0, SwKey.new⟩)
      (a := fun idx => (prm.crs.get? (idx : ℤ)).getD SwKey.new) (h.imp id fun h => by
        refine ⟨?_, fun id hid => ?_⟩
        · obtain ⟨⟨a, ha⟩, -⟩ := h id0 hid0
          simp only [ha, Option.getD_some]
        · obtain ⟨-, key, hk⟩ := h id hid
          simp only [hk]) hH π
    exact ⟨_, e⟩

theorem conjugate_never {prm : CPar C} (ev : Ev C) {ct : CCt C} {ckSet : KeySet (ConjKey C)}
    {id : String} (hid : id ∈ ct.ct.parties)
    (hk : ¬ ((∃ u, prm.crs.get? (-2) = some u) ∧ ∃ key, ckSet.get id = .ok key)) (π : Sched) :
    Go.Post (ev.ConjugateNew prm ct ckSet π) fun _ => False := by
  have hord : ∀ (σ : Sched) n, id ∈ σ.f n (ct.ct.value.keys.filter (· ≠ "0")) := fun σ n => by
    rw [(σ.perm n _).mem_iff, List.mem_filter]
    have := mem_parties.mp hid
    exact ⟨this.1, by simpa using this.2⟩
  unfold Ev.ConjugateNew
  refine Go.Post.bind' fun _ => Go.Post.bind' fun _ => ?_
  refine Go.Post.bind (Q := fun _ => False) ?_ fun _ h => h.elim
  unfold KS.Conjugate
  refine Go.Post.bind' fun l => Go.Post.bind' fun _ => Go.Post.bind' fun l0 => ?_
  split
  · exact Go.Post.error
  refine Go.Post.bind' fun _ => ?_
  by_cases hkey : ∃ key, ckSet.get id = .ok key
  · have hc : prm.crs.get? (-2) = none := by
      cases h : prm.crs.get? (-2) with
      | none => rfl
      | some a => exact absurd ⟨⟨a, h⟩, hkey⟩ hk
    refine Go.Post.bind' fun s => ?_
    show Go.Post (forEach (π.sub 2 |>.f 2 (ct.ct.value.keys.filter (· ≠ "0"))) _ _) _
    refine forEach_never (hord _ 2) (fun s => ?_) _
    refine Go.Post.bind' fun _ => Go.Post.bind (deref_never hc) fun _ h => h.elim
  · refine Go.Post.bind (Q := fun _ => False) ?_ fun _ h => h.elim
    show Go.Post (forEach (π.sub 2 |>.f 1 (ct.ct.value.keys.filter (· ≠ "0"))) _ _) _
    refine forEach_never (hord _ 1) (fun s => ?_) _
    exact Go.Post.bind (.of_not_ok hkey) fun _ h => h.elim

/-- **C73 (conjugation without keys).** `ConjugateNew` panics whenever a participant has no
conjugation key or the common reference string no entry -2. -/
theorem C73_ConjugateNew_panics {prm : CPar C} (ev : Ev C) {ct : CCt C} {ckSet : KeySet (ConjKey C)}
    {id : String} (hid : id ∈ ct.ct.parties)
    (hk : ¬ ((∃ u, prm.crs.get? (-2) = some u) ∧ ∃ key, ckSet.get id = .ok key)) (π : Sched) :
    (ev.ConjugateNew prm ct ckSet π).panics :=
  Go.panics_of_post (conjugate_never ev hid hk π)

/-- **C73 (what `ConjugateNew` needs).** On a well-formed ciphertext with a participant
`ConjugateNew` returns if and only if the ciphertext is at the highest level, every participant has a
conjugation key and the common reference string has the entry -2. -/
theorem C73_ConjugateNew_iff {logN : ℕ} (hN : C.N = 2 ^ logN) (hC : C.Good)
    {prm : CPar C} {ev : Ev C} (hok : ev.Ok) {ct : CCt C} {L : ℕ} (hL : L < C.nQ)
    (w : ct.ct.Wf L false) (hp : ct.ct.parties.Nonempty) (ckSet : KeySet (ConjKey C)) (π : Sched) :
    (∃ x, ev.ConjugateNew prm ct ckSet π = .ok x) ↔ L + 1 = C.nQ ∧
      (∃ u, prm.crs.get? (-2) = some u) ∧ ∀ id ∈ ct.ct.parties, ∃ key, ckSet.get id = .ok key := by
  constructor
  · rintro ⟨x, hx⟩
    have hLe : L + 1 = C.nQ := by
      by_contra h
      have := C27_ConjugateNew_below_max_panics prm ev (by omega) w ckSet π
      rw [hx] at this
      cases this
    have hall : ∀ id ∈ ct.ct.parties,
        (∃ u, prm.crs.get? (-2) = some u) ∧ ∃ key, ckSet.get id = .ok key := fun id hid => by
      by_contra hk
      exact conjugate_never ev hid hk π x hx
    obtain ⟨id0, hid0⟩ := hp
    exact ⟨hLe, (hall id0 hid0).1, fun id hid => (hall id hid).2⟩
  · rintro ⟨hLe, ⟨u, hu⟩, h⟩
    obtain rfl : L = C.lq := by unfold Ctx.lq; omega
    obtain ⟨ids, e0, _, m0⟩ := ct.ct.IDSet_parties (π.isOrder 0 ct.ct.value)
    have hout := new_ctIs' (C := C) C.lq (π.isOrder 1 ids) m0
    obtain ⟨k1, r1, e1, -, c1⟩ := conjugate_spec hN hC le_rfl w (hout.toWf (mem_insert_self _ _))
      (fun id => by rw [hout.mem, w.comps.mem]) (ckSet := ckSet)
      (ck := fun id => match ckSet.get id with | .ok key => key | .error _ => ⟨"", SwKey.new⟩)
      (fun id hid => by obtain ⟨key, hk⟩ := h id hid; simp only [hk]) hu ((π.sub 2).rotOrd_ok w.wf)
      ev.ksw hok.ksw
    refine ⟨({ ev with ksw := k1 }, ⟨r1, ct.scale⟩), ?_⟩
    unfold Ev.ConjugateNew
    simp only [e0, w.level, Go.ok_bind, CCt.new, e1]
    rfl

end MK
