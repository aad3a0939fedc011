import Verif.Evaluator
import Verif.Props.KeySwitch

/-!
# Closed forms of the evaluator's linear operations

Schedules, level dropping, multiplication by constants and `evaluateInPlace`.
-/

noncomputable section

namespace MK

open Finset

variable {C : Ctx}

/-! ## Schedules -/

theorem Sched.isOrder {V : Type _} (π : Sched) (k : ℕ) (m : GoMap String V) :
    m.IsOrder (π.f k m.keys) := π.perm k _

/-- The identity schedule. -/
def Sched.id : Sched := ⟨fun _ l => l, fun _ l => List.Perm.refl l⟩

/-- The schedule visiting everything backwards. -/
def Sched.rev : Sched := ⟨fun _ l => l.reverse, fun _ l => List.reverse_perm l⟩

theorem Ct.IDSet_parties (ct : Ct C) {o : List String} (ho : ct.value.IsOrder o) :
    ∃ r, ct.IDSet o = .ok r ∧ GoMap.WF r ∧ ∀ v, v ∈ GoMap.keys r ↔ v ∈ ct.parties := by
  obtain ⟨r, h1, h2, h3⟩ := ct.IDSet_spec ho
  exact ⟨r, h1, h2, fun v => by rw [h3, mem_parties]⟩

theorem IDSet.Has_iff (s : IDSet) (v : String) : s.Has v = true ↔ v ∈ GoMap.keys s :=
  GoMap.has_iff _ _

theorem union_spec {s0 s1 : IDSet} {S0 S1 : Finset String} (h0 : "0" ∉ S0) (h1 : "0" ∉ S1)
    (hs0 : ∀ v, v ∈ GoMap.keys s0 ↔ v ∈ S0) (hs1 : ∀ v, v ∈ GoMap.keys s1 ↔ v ∈ S1)
    {o0 o1 : List String} (ho0 : GoMap.IsOrder s0 o0) (ho1 : GoMap.IsOrder s1 o1) :
    ∃ r, s0.Union s1 o0 o1 = .ok r ∧ GoMap.WF r ∧ ∀ v, v ∈ GoMap.keys r ↔ v ∈ S0 ∪ S1 := by
  obtain ⟨r, hr, hw, hm⟩ := IDSet.addAll_spec o0 (fun h => h0 ((hs0 _).mp (ho0.mem.mp h)))
    IDSet.new GoMap.empty_wf
  obtain ⟨r', hr', hw', hm'⟩ := IDSet.addAll_spec o1 (fun h => h1 ((hs1 _).mp (ho1.mem.mp h))) r hw
  refine ⟨r', ?_, hw', fun v => ?_⟩
  · unfold IDSet.Union
    rw [hr, Go.ok_bind, hr']
  · rw [hm', hm, ho0.mem, ho1.mem, hs0, hs1, Finset.mem_union]
    simp [IDSet.new]

theorem new_ctIs (L : ℕ) (o : List String) :
    CtIs (Ct.new L o : Ct C) L (insert "0" o.toFinset) (fun _ _ => 0) := by
  have h := Ct.new_wf (C := C) L o
  refine ⟨h.wf, fun id => ?_, h.len, h.ntt, fun id p hp i _ => ?_⟩
  · rw [← GoMap.has_iff, GoMap.has, Ct.new_get?]
    by_cases h1 : id ∈ o <;> by_cases h2 : id = "0" <;> simp [h1, h2]
  · rw [Ct.new_get?] at hp
    split at hp
    · cases hp; rfl
    · cases hp

theorem new_ctIs' {V : Type _} (L : ℕ) {m : GoMap String V} {o : List String} (ho : m.IsOrder o)
    {S : Finset String} (hS : ∀ v, v ∈ m.keys ↔ v ∈ S) :
    CtIs (Ct.new L o : Ct C) L (insert "0" S) (fun _ _ => 0) := by
  have := new_ctIs (C := C) L o
  have h : o.toFinset = S := by ext v; rw [List.mem_toFinset, ho.mem, hS]
  rwa [h] at this

theorem newCiphertextBinary_spec {a b : CCt C} {la lb : ℕ} {fa fb : Bool} (ha : a.ct.Wf la fa)
    (hb : b.ct.Wf lb fb) (π : Sched) :
    ∃ r, newCiphertextBinary a b π = .ok ⟨r, max a.scale b.scale⟩ ∧
      CtIs r (min la lb) (insert "0" (a.ct.parties ∪ b.ct.parties)) (fun _ _ => 0) := by
  obtain ⟨s0, e0, _, m0⟩ := a.ct.IDSet_parties (π.isOrder 0 a.ct.value)
  obtain ⟨s1, e1, _, m1⟩ := b.ct.IDSet_parties (π.isOrder 1 b.ct.value)
  obtain ⟨s, e, _, m⟩ := union_spec (zero_notMem_parties _) (zero_notMem_parties _) m0 m1
    (π.isOrder 2 s0) (π.isOrder 3 s1)
  refine ⟨_, ?_, new_ctIs' (min la lb) (π.isOrder 4 s) m⟩
  unfold newCiphertextBinary
  simp only [ha.level, hb.level, e0, e1, e, Go.ok_bind, Go.pure_eq, CCt.new]

/-! ## `DropLevel` -/

theorem dropLevel_spec {ct : Ct C} {L : ℕ} {K : Finset String}
    {F : String → (i : ℕ) → Row C.N (C.q i)} (H : CtIs ct L K F) (h0 : "0" ∈ K) {n : ℕ}
    (hn : n ≤ L) {o : List String} (ho : ct.value.IsOrder o) :
    ∃ r, dropLevel ct n o = .ok r ∧ CtIs r (L - n) K F := by
  have hoK : o.toFinset = K := by ext v; rw [List.mem_toFinset, ho.mem, H.mem]
  obtain ⟨s', h1, h2⟩ := forEach_inv o (ho.nodup H.wf) (fun id (ct : Ct C) => do
      let p ← ct.value.deref id
      return (⟨ct.value.set id (p.truncate (L + 1 - n))⟩ : Ct C))
    (fun done s => s.value.WF ∧ (∀ id, id ∈ s.value.keys ↔ id ∈ K) ∧
      (∀ id p, s.value.get? id = some p → p.len = if id ∈ done then L + 1 - n else L + 1) ∧
      (∀ id p, s.value.get? id = some p → p.isNTT = false) ∧
      (∀ id p, s.value.get? id = some p → ∀ i ≤ L, p.row i = F id i)) ct
    ⟨H.wf, H.mem, by simpa using H.len, H.ntt, H.rows⟩ (by
      rintro done a s hnd ha ⟨w, m, l, nt, rw'⟩
      have haK : a ∈ K := by rw [← hoK]; simpa using ha
      obtain ⟨p, hp⟩ := GoMap.exists_get?_of_mem ((m a).mpr haK)
      refine ⟨⟨s.value.set a (p.truncate (L + 1 - n))⟩, ?_, w.set _ _, ?_, ?_, ?_, ?_⟩
      · simp only [GoMap.deref_of_get? hp, Go.ok_bind, Go.pure_eq]
      · intro id
        rw [GoMap.mem_keys_set, m]
        constructor
        · rintro (rfl | h)
          · exact haK
          · exact h
        · exact Or.inr
      · intro id p' hp'
        by_cases he : id = a
        · subst he
          rw [GoMap.get?_set_self] at hp'
          cases hp'
          simp [RPoly.truncate]
        · rw [GoMap.get?_set_of_ne _ _ he] at hp'
          rw [l _ _ hp']
          simp [he]
      · intro id p' hp'
        by_cases he : id = a
        · subst he
          rw [GoMap.get?_set_self] at hp'
          cases hp'
          exact nt id p hp
        · rw [GoMap.get?_set_of_ne _ _ he] at hp'
          exact nt _ _ hp'
      · intro id p' hp'
        by_cases he : id = a
        · subst he
          rw [GoMap.get?_set_self] at hp'
          cases hp'
          exact rw' id p hp
        · rw [GoMap.get?_set_of_ne _ _ he] at hp'
          exact rw' _ _ hp')
  obtain ⟨w, m, l, nt, rw'⟩ := h2
  refine ⟨s', ?_, w, m, ?_, nt, fun id p hp i hi => rw' id p hp i (by omega)⟩
  · unfold dropLevel
    simp only [(H.toWf h0).level, Go.ok_bind]
    rw [if_neg (by omega)]
    exact h1
  · intro id p hp
    rw [l id p hp, hoK, if_pos ((m id).mp (GoMap.mem_keys_of_get? hp))]
    omega

/-! ## `MultByConst` -/

theorem forN_inv {σ : Type _} (n : ℕ) (body : ℕ → σ → Go σ) (Inv : ℕ → σ → Prop) (s : σ)
    (h0 : Inv 0 s) (step : ∀ k < n, ∀ s, Inv k s → ∃ s', body k s = .ok s' ∧ Inv (k + 1) s') :
    ∃ s', forN n body s = .ok s' ∧ Inv n s' := by
  induction n with
  | zero => exact ⟨s, rfl, h0⟩
  | succ n ih =>
    obtain ⟨s1, e1, h1⟩ := ih fun k hk => step k (by omega)
    obtain ⟨s2, e2, h2⟩ := step n (by omega) s1 h1
    exact ⟨s2, by simp only [forN, e1, Go.ok_bind, e2], h2⟩

open Classical in
/-- The rows `F`, overwritten by `V` where `S` holds. -/
def mixF (S : String → ℕ → Fin C.N → Prop) (V F : String → (i : ℕ) → Row C.N (C.q i)) (id : String)
    (i : ℕ) : Row C.N (C.q i) := fun j => if S id i j then V id i j else F id i j

theorem mixF_congr {S S' : String → ℕ → Fin C.N → Prop}
    {V F : String → (i : ℕ) → Row C.N (C.q i)} {id : String} {i : ℕ}
    (h : ∀ j, S id i j ↔ S' id i j) : mixF S V F id i = mixF S' V F id i := by
  funext j
  unfold mixF
  by_cases hs : S id i j
  · rw [if_pos hs, if_pos ((h j).mp hs)]
  · rw [if_neg hs, if_neg (fun h' => hs ((h j).mpr h'))]

theorem mulHalf_loop {ct0 out : Ct C} {L0 L1 i : ℕ} {K0 K : Finset String}
    {F0 V F : String → (i : ℕ) → Row C.N (C.q i)} (H0 : CtIs ct0 L0 K0 F0) (hK : K0 ⊆ K)
    {S : String → ℕ → Fin C.N → Prop} (H : CtIs out L1 K (mixF S V F)) (hi0 : i ≤ L0)
    (sel : Fin C.N → Prop) [DecidablePred sel] (c : ZMod (C.q i))
    (hV : ∀ id ∈ K0, ∀ j, sel j → V id i j = RPoly.mred (F0 id i j) c) {o : List String}
    (ho : ct0.value.IsOrder o) :
    ∃ r, forEach o (mulHalfStep ct0 i sel c) out = .ok r ∧
      CtIs r L1 K (mixF (fun id i' j => S id i' j ∨ (id ∈ K0 ∧ i' = i ∧ sel j)) V F) := by
  have hoK : o.toFinset = K0 := by ext v; rw [List.mem_toFinset, ho.mem, H0.mem]
  obtain ⟨r, h1, h2⟩ := forEach_inv o (ho.nodup H0.wf) (mulHalfStep ct0 i sel c)
    (fun done s => CtIs s L1 K (mixF (fun id i' j => S id i' j ∨ (id ∈ done ∧ i' = i ∧ sel j)) V F))
    out (H.congr fun id _ i' _ => mixF_congr fun j => by simp) (by
      rintro done a s hnd ha hI
      have haK : a ∈ K0 := by rw [← hoK]; simpa using ha
      obtain ⟨p0, hp0, _, _, r0⟩ := H0.get haK
      obtain ⟨p1, hp1, l1, n1, r1⟩ := hI.get (hK haK)
      refine ⟨⟨s.value.set a (p1.setRow i sel fun j => RPoly.mred (p0.row i j) c)⟩, ?_, ?_⟩
      · simp only [mulHalfStep, GoMap.deref_of_get? hp0, GoMap.deref_of_get? hp1, Go.ok_bind,
          Go.pure_eq]
      · refine hI.set (p := p1.setRow i sel fun j => RPoly.mred (p0.row i j) c) (hK haK) l1 n1
          ?_ ?_
        · intro i' hi'
          by_cases he : i' = i
          · subst he
            funext j
            simp only [RPoly.setRow, Function.update_self]
            by_cases hs : sel j
            · rw [if_pos hs, mixF, if_pos (Or.inr ⟨mem_insert_self _ _, rfl, hs⟩), r0 i' hi0,
                hV a haK j hs]
            · rw [if_neg hs, r1 i' hi', mixF, mixF]
              by_cases hS : S a i' j
              · rw [if_pos (Or.inl hS), if_pos (Or.inl hS)]
              · rw [if_neg, if_neg]
                · rintro (h | ⟨_, _, h⟩)
                  · exact hS h
                  · exact hs h
                · rintro (h | ⟨_, _, h⟩)
                  · exact hS h
                  · exact hs h
          · have : (p1.setRow i sel fun j => RPoly.mred (p0.row i j) c).row i' = p1.row i' := by
              simp [RPoly.setRow, Function.update_of_ne he]
            rw [this, r1 i' hi']
            exact mixF_congr fun j => by simp [he]
        · intro id' _ hne i' _
          exact mixF_congr fun j => by simp [hne])
  rw [hoK] at h2
  exact ⟨r, h1, h2⟩

/-- The residue a real or imaginary part is scaled to. -/
def CPar.scaled (prm : CPar C) (x sc : ℚ) (i : ℕ) : ZMod (C.q i) :=
  if x ≠ 0 then (scaleUpExact prm.fl x sc (C.q i) : ZMod (C.q i)) else 0

/-- The factor multiplying coefficient `j` of row `i`. -/
def CPar.factor (prm : CPar C) (c : ℚ × ℚ × ℚ) (i : ℕ) (j : Fin C.N) : ZMod (C.q i) :=
  if j.val < C.N / 2 then prm.scaled c.1 c.2.2 i + prm.scaled c.2.1 c.2.2 i * prm.psi i
  else prm.scaled c.1 c.2.2 i - prm.scaled c.2.1 c.2.2 i * prm.psi i

theorem scaledConsts_fst (hC : C.Good) (prm : CPar C) (re im sc : ℚ) (i : ℕ) (x : ZMod (C.q i)) :
    RPoly.mred x (prm.scaledConsts re im sc i).1 =
      x * (prm.scaled re sc i + prm.scaled im sc i * prm.psi i) := by
  unfold CPar.scaledConsts CPar.scaled
  dsimp only
  rw [RPoly.mred_mont' (hC.oddQ i)]
  by_cases h2 : im = 0
  · simp [h2]
  · simp only [ne_eq, h2, not_false_eq_true, if_true]
    rw [RPoly.mred_mont' (hC.oddQ i)]

theorem scaledConsts_snd (hC : C.Good) (prm : CPar C) (re im sc : ℚ) (i : ℕ) (x : ZMod (C.q i)) :
    RPoly.mred x (prm.scaledConsts re im sc i).2 =
      x * (prm.scaled re sc i - prm.scaled im sc i * prm.psi i) := by
  unfold CPar.scaledConsts CPar.scaled
  dsimp only
  by_cases h2 : im = 0
  · simp only [h2, ne_eq, not_true_eq_false, if_false, zero_mul, sub_zero]
    rw [RPoly.mred_mont' (hC.oddQ i)]
  · simp only [ne_eq, h2, not_false_eq_true, if_true]
    rw [RPoly.mred_mont' (hC.oddQ i), RPoly.mred_mont' (hC.oddQ i), ZMod.natCast_self, zero_sub,
      sub_eq_add_neg]

/-- What `MultByConst` writes. -/
theorem multByConst_spec (hC : C.Good) (prm : CPar C) {ct0 out : CCt C} {L0 L1 : ℕ}
    {K0 K : Finset String} {F0 F : String → (i : ℕ) → Row C.N (C.q i)} (H0 : CtIs ct0.ct L0 K0 F0)
    (H : CtIs out.ct L1 K F) (h0 : "0" ∈ K0) (hK : K0 ⊆ K) (c : Const) (π : Sched) :
    ∃ r, prm.MultByConst ct0 c out π =
        .ok ⟨r, prm.fl.rnd (ct0.scale * (prm.getConstAndScale (min L0 L1) c).2.2)⟩ ∧
      CtIs r L1 K (mixF (fun id i _ => id ∈ K0 ∧ i ≤ min L0 L1)
        (fun id i j => F0 id i j * prm.factor (prm.getConstAndScale (min L0 L1) c) i j) F) := by
  set cs := prm.getConstAndScale (min L0 L1) c with hcs
  set V : String → (i : ℕ) → Row C.N (C.q i) := fun id i j => F0 id i j * prm.factor cs i j with hV
  obtain ⟨r, h1, h2⟩ := forN_inv (min L0 L1 + 1) (fun i out => do
      let out ← forEach (π.f (2 * i) ct0.ct.value.keys)
        (mulHalfStep ct0.ct i (fun j => j.val < C.N / 2)
          (prm.scaledConsts cs.1 cs.2.1 cs.2.2 i).1) out
      forEach (π.f (2 * i + 1) ct0.ct.value.keys)
        (mulHalfStep ct0.ct i (fun j => ¬ j.val < C.N / 2)
          (prm.scaledConsts cs.1 cs.2.1 cs.2.2 i).2) out)
    (fun n s => CtIs s L1 K (mixF (fun id i _ => id ∈ K0 ∧ i < n) V F)) out.ct
    (H.congr fun id _ i _ => by funext j; simp [mixF]) (by
      intro i hi s hs
      obtain ⟨r1, e1, g1⟩ := mulHalf_loop H0 hK hs (by omega) (fun j => j.val < C.N / 2)
        (prm.scaledConsts cs.1 cs.2.1 cs.2.2 i).1 (fun id _ j hj => by
          rw [scaledConsts_fst hC]
          simp only [hV, CPar.factor, if_pos hj]) (π.isOrder (2 * i) ct0.ct.value)
      obtain ⟨r2, e2, g2⟩ := mulHalf_loop H0 hK g1 (by omega) (fun j => ¬ j.val < C.N / 2)
        (prm.scaledConsts cs.1 cs.2.1 cs.2.2 i).2 (fun id _ j hj => by
          rw [scaledConsts_snd hC]
          simp only [hV, CPar.factor, if_neg hj]) (π.isOrder (2 * i + 1) ct0.ct.value)
      refine ⟨r2, by simp only [e1, Go.ok_bind, e2], g2.congr fun id _ i' _ => mixF_congr fun j => ?_⟩
      constructor
      · rintro ((⟨a, b⟩ | ⟨a, b, _⟩) | ⟨a, b, _⟩) <;> exact ⟨a, by omega⟩
      · rintro ⟨a, b⟩
        rcases Nat.lt_succ_iff_lt_or_eq.mp b with b | b
        · exact Or.inl (Or.inl ⟨a, b⟩)
        · by_cases hj : j.val < C.N / 2
          · exact Or.inl (Or.inr ⟨a, b, hj⟩)
          · exact Or.inr ⟨a, b, hj⟩)
  refine ⟨r, ?_, h2.congr fun id _ i _ => mixF_congr fun j => by rw [Nat.lt_succ_iff]⟩
  unfold CPar.MultByConst
  simp only [(H0.toWf h0).level, (H.toWf (hK h0)).level, Go.ok_bind, ← hcs]
  rw [h1]
  simp only [Go.ok_bind, Go.pure_eq]

/-! ## `evaluateInPlace` -/

/-- The integers both operands are multiplied by, as residues. -/
def CPar.align (prm : CPar C) (s s' : ℚ) (l l' : ℕ) (i : ℕ) (j : Fin C.N) : ZMod (C.q i) :=
  if s < s' ∧ 1 < prm.ratio s' s then
    prm.factor (prm.getConstAndScale (min l l') (.f64 (prm.ratio s' s))) i j
  else 1

/-- Padding the pool. -/
theorem pad_spec {pool : Ct C} {L : ℕ} {S : Finset String} (h : pool.Wf L false)
    {m : IDSet} (hm : ∀ v, v ∈ GoMap.keys m ↔ v ∈ S) {oEl o : List String}
    (ho1 : pool.value.IsOrder oEl) (ho2 : GoMap.IsOrder m o) :
    ∃ r F, pool.PadCiphertext oEl o = .ok r ∧ CtIs r L (pool.value.keys.toFinset ∪ S) F := by
  obtain ⟨p, hp⟩ := GoMap.exists_get?_of_mem h.zero_mem
  obtain ⟨old, e, _, mo⟩ := pool.IDSet_parties ho1
  have hg := fun id => Ct.padLoop_get? (C := C) old (L + 1) p.isNTT o pool.value id
  set r : Ct C := ⟨Ct.padLoop old (L + 1) p.isNTT pool.value o⟩ with hr
  have hlen : ∀ id p', r.value.get? id = some p' → p'.len = L + 1 ∧ p'.isNTT = false := by
    intro id p' hp'
    rw [hr] at hp'
    simp only [hg] at hp'
    split at hp'
    · cases hp'
      exact ⟨rfl, h.ntt "0" p hp⟩
    · exact ⟨h.len _ _ hp', h.ntt _ _ hp'⟩
  refine ⟨r, r.rowsOf, ?_, Ct.padLoop_wf _ _ _ _ _ h.wf, ?_, fun id p' hp' => (hlen id p' hp').1,
    fun id p' hp' => (hlen id p' hp').2, fun id p' hp' i _ => by unfold Ct.rowsOf; rw [hp']⟩
  · unfold Ct.PadCiphertext
    simp only [GoMap.deref_of_get? hp, e, h.level, Go.ok_bind, Go.pure_eq, hr]
  · intro id
    rw [← GoMap.has_iff, GoMap.has, hr]
    simp only [hg]
    rw [Finset.mem_union, List.mem_toFinset, ← hm, ← ho2.mem]
    by_cases h1 : id ∈ o
    · by_cases h2 : old.Has id = true
      · have h3 : id ∈ pool.value.keys := (mem_parties.mp ((mo id).mp ((old.Has_iff id).mp h2))).1
        obtain ⟨p', hp'⟩ := GoMap.exists_get?_of_mem h3
        simp [h1, h2, hp']
      · rw [Bool.not_eq_true] at h2
        simp [h1, h2]
    · simp only [h1, false_and, if_false, or_false]
      exact GoMap.has_iff _ _

/-- What `evaluateInPlace` computes, for the ring operation `g`. -/
def evalF (g : (i : ℕ) → Row C.N (C.q i) → Row C.N (C.q i) → Row C.N (C.q i))
    (S0 S1 : Finset String) (X Y : String → (i : ℕ) → Row C.N (C.q i)) (id : String) (i : ℕ) :
    Row C.N (C.q i) :=
  if id = "0" then g i (X id i) (Y id i)
  else if id ∉ S0 then Y id i else if id ∉ S1 then X id i else g i (X id i) (Y id i)

theorem evalLoop_spec {evaluate : PolyOp C}
    {g : (i : ℕ) → Row C.N (C.q i) → Row C.N (C.q i) → Row C.N (C.q i)}
    (hev : ∀ L a b out, evaluate L a b out = out.write L fun i => g i (a.row i) (b.row i))
    {tmp0 tmp1 out : Ct C} {L l0 l1 : ℕ} {K0 K1 S0 S1 : Finset String} (hl0 : L ≤ l0) (hl1 : L ≤ l1)
    {X Y F : String → (i : ℕ) → Row C.N (C.q i)} (H0 : CtIs tmp0 l0 K0 X) (H1 : CtIs tmp1 l1 K1 Y)
    (hS0 : insert "0" S0 ⊆ K0) (hS1 : insert "0" S1 ⊆ K1) (hz0 : "0" ∉ S0) (hz1 : "0" ∉ S1)
    (H : CtIs out L (insert "0" (S0 ∪ S1)) F) {idset0 idset1 : IDSet}
    (hm0 : ∀ v, v ∈ GoMap.keys idset0 ↔ v ∈ S0) (hm1 : ∀ v, v ∈ GoMap.keys idset1 ↔ v ∈ S1)
    (π : Sched) :
    ∃ p0 p1 o outIds r, tmp0.value.get? "0" = some p0 ∧ tmp1.value.get? "0" = some p1 ∧
      out.value.get? "0" = some o ∧
      (⟨out.value.set "0" (evaluate L p0 p1 o)⟩ : Ct C).IDSet
        (π.f 9 (out.value.set "0" (evaluate L p0 p1 o)).keys) = .ok outIds ∧
      forEach (π.f 10 (GoMap.keys outIds)) (evalStep evaluate L idset0 idset1 tmp0 tmp1)
        ⟨out.value.set "0" (evaluate L p0 p1 o)⟩ = .ok r ∧
      CtIs r L (insert "0" (S0 ∪ S1)) (evalF g S0 S1 X Y) := by
  obtain ⟨p0, hp0, _, _, r0⟩ := H0.get (hS0 (mem_insert_self _ _))
  obtain ⟨p1, hp1, _, _, r1⟩ := H1.get (hS1 (mem_insert_self _ _))
  obtain ⟨o, hpo, lo, no, _⟩ := H.get (mem_insert_self _ _)
  set w := evaluate L p0 p1 o with hw
  have hwl : w.len = L + 1 := by rw [hw, hev]; exact lo
  have hwn : w.isNTT = false := by rw [hw, hev]; exact no
  have hwr : ∀ i ≤ L, w.row i = g i (X "0" i) (Y "0" i) := by
    intro i hi
    rw [hw, hev, RPoly.write_row_of_le _ _ hi, r0 i (by omega), r1 i (by omega)]
  set F1 : Finset String → String → (i : ℕ) → Row C.N (C.q i) := fun done id i =>
    if id = "0" ∨ id ∈ done then evalF g S0 S1 X Y id i else F id i with hF1
  have H' : CtIs ⟨out.value.set "0" w⟩ L (insert "0" (S0 ∪ S1)) (F1 ∅) := by
    refine H.set (mem_insert_self _ _) hwl hwn ?_ ?_
    · intro i hi
      rw [hwr i hi]
      simp [hF1, evalF]
    · intro id _ hne i _
      simp [hF1, hne]
  have hpar : (⟨out.value.set "0" w⟩ : Ct C).parties = S0 ∪ S1 := by
    ext v
    rw [mem_parties, H'.mem, mem_insert]
    constructor
    · rintro ⟨h | h, h'⟩
      · exact absurd h h'
      · exact h
    · intro h
      refine ⟨Or.inr h, ?_⟩
      rintro rfl
      rcases mem_union.mp h with h | h
      · exact hz0 h
      · exact hz1 h
  obtain ⟨outIds, e1, ew, em⟩ := (⟨out.value.set "0" w⟩ : Ct C).IDSet_parties
    (π.isOrder 9 (out.value.set "0" w))
  have hord := π.isOrder 10 outIds
  have hoS : (π.f 10 (GoMap.keys outIds)).toFinset = S0 ∪ S1 := by
    ext v
    rw [List.mem_toFinset, hord.mem, em, hpar]
  obtain ⟨r, e2, hI⟩ := forEach_inv (π.f 10 (GoMap.keys outIds)) (hord.nodup ew)
    (evalStep evaluate L idset0 idset1 tmp0 tmp1)
    (fun done s => CtIs s L (insert "0" (S0 ∪ S1)) (F1 done)) _ H' (by
      rintro done a s hnd ha hI
      have haS : a ∈ S0 ∪ S1 := by rw [← hoS]; simpa using ha
      have ha0 : a ≠ "0" := by
        rintro rfl
        rcases mem_union.mp haS with h | h
        · exact hz0 h
        · exact hz1 h
      obtain ⟨p, hp, l, n, rr⟩ := hI.get (mem_insert_of_mem haS)
      have fin : ∀ p' : RQ C, p'.len = L + 1 → p'.isNTT = false →
          (∀ i ≤ L, p'.row i = evalF g S0 S1 X Y a i) →
          CtIs ⟨s.value.set a p'⟩ L (insert "0" (S0 ∪ S1)) (F1 (insert a done)) := by
        intro p' h1 h2 h3
        refine hI.set (mem_insert_of_mem haS) h1 h2 ?_ ?_
        · intro i hi
          rw [h3 i hi]
          simp [hF1]
        · intro id _ hne i _
          simp [hF1, hne]
      by_cases h0 : a ∈ S0
      · have h0' : idset0.Has a = true := (IDSet.Has_iff _ _).mpr ((hm0 a).mpr h0)
        obtain ⟨q0, hq0, _, _, s0⟩ := H0.get (hS0 (mem_insert_of_mem h0))
        by_cases h1 : a ∈ S1
        · have h1' : idset1.Has a = true := (IDSet.Has_iff _ _).mpr ((hm1 a).mpr h1)
          obtain ⟨q1, hq1, _, _, s1⟩ := H1.get (hS1 (mem_insert_of_mem h1))
          refine ⟨⟨s.value.set a (evaluate L q0 q1 p)⟩, ?_, fin _ ?_ ?_ ?_⟩
          · simp only [evalStep, h0', h1', Bool.not_true, Bool.false_eq_true, if_false,
              GoMap.deref_of_get? hq0, GoMap.deref_of_get? hq1, GoMap.deref_of_get? hp, Go.ok_bind,
              Go.pure_eq]
          · rw [hev]; exact l
          · rw [hev]; exact n
          · intro i hi
            rw [hev, RPoly.write_row_of_le _ _ hi, s0 i (by omega), s1 i (by omega)]
            simp [evalF, h0, h1]
        · have h1' : idset1.Has a = false := by
            rw [← Bool.not_eq_true]
            exact fun h => h1 ((hm1 a).mp ((IDSet.Has_iff _ _).mp h))
          refine ⟨⟨s.value.set a (RPoly.copyLvl L q0 p)⟩, ?_, fin _ l n ?_⟩
          · simp only [evalStep, h0', h1', Bool.not_true, Bool.not_false, Bool.false_eq_true,
              if_false, if_true, GoMap.deref_of_get? hq0, GoMap.deref_of_get? hp, Go.ok_bind,
              Go.pure_eq]
          · intro i hi
            rw [RPoly.copyLvl, RPoly.write_row_of_le _ _ hi, s0 i (by omega)]
            simp [evalF, h0, h1, ha0]
      · have h0' : idset0.Has a = false := by
          rw [← Bool.not_eq_true]
          exact fun h => h0 ((hm0 a).mp ((IDSet.Has_iff _ _).mp h))
        have h1 : a ∈ S1 := (mem_union.mp haS).resolve_left h0
        obtain ⟨q1, hq1, _, _, s1⟩ := H1.get (hS1 (mem_insert_of_mem h1))
        refine ⟨⟨s.value.set a (RPoly.copyLvl L q1 p)⟩, ?_, fin _ l n ?_⟩
        · simp only [evalStep, h0', Bool.not_false, if_true, GoMap.deref_of_get? hq1,
            GoMap.deref_of_get? hp, Go.ok_bind, Go.pure_eq]
        · intro i hi
          rw [RPoly.copyLvl, RPoly.write_row_of_le _ _ hi, s1 i (by omega)]
          simp [evalF, h0, ha0])
  rw [hoS] at hI
  refine ⟨p0, p1, o, outIds, r, hp0, hp1, hpo, e1, e2, hI.congr fun id hid i _ => ?_⟩
  rcases mem_insert.mp hid with h | h
  · simp [hF1, h]
  · simp only [hF1, h, or_true, if_true]

/-- The rows of an operand after alignment. -/
def CPar.alignedRows (prm : CPar C) (c : CCt C) (s' : ℚ) (l lq : ℕ) (id : String) (i : ℕ) :
    Row C.N (C.q i) := fun j => c.ct.rowsOf id i j * prm.align c.scale s' l lq i j

theorem evaluateInPlace_spec (hC : C.Good) (prm : CPar C) (ev : Ev C) {c0 c1 ctOut : CCt C}
    {l0 l1 : ℕ} (h0 : c0.ct.Wf l0 false) (h1 : c1.ct.Wf l1 false) (hl0 : l0 ≤ C.lq) (hl1 : l1 ≤ C.lq)
    (hp : ev.pool.Wf C.lq false) {F : String → (i : ℕ) → Row C.N (C.q i)}
    (H : CtIs ctOut.ct (min l0 l1) (insert "0" (c0.ct.parties ∪ c1.ct.parties)) F)
    {evaluate : PolyOp C}
    {g : (i : ℕ) → Row C.N (C.q i) → Row C.N (C.q i) → Row C.N (C.q i)}
    (hev : ∀ L a b out, evaluate L a b out = out.write L fun i => g i (a.row i) (b.row i))
    (π : Sched) :
    ∃ pool r, ev.evaluateInPlace prm c0 c1 ctOut evaluate π =
        .ok ({ ev with pool := pool }, ⟨r, ctOut.scale⟩) ∧ pool.Wf C.lq false ∧
      CtIs r (min l0 l1) (insert "0" (c0.ct.parties ∪ c1.ct.parties))
        (evalF g c0.ct.parties c1.ct.parties (prm.alignedRows c0 c1.scale l0 C.lq)
          (prm.alignedRows c1 c0.scale l1 C.lq)) := by
  obtain ⟨s0, e0, _, m0⟩ := c0.ct.IDSet_parties (π.isOrder 0 c0.ct.value)
  obtain ⟨s1, e1, _, m1⟩ := c1.ct.IDSet_parties (π.isOrder 1 c1.ct.value)
  obtain ⟨s, e, _, m⟩ := union_spec (zero_notMem_parties _) (zero_notMem_parties _) m0 m1
    (π.isOrder 2 s0) (π.isOrder 3 s1)
  obtain ⟨pool, Fp, ep, Hp⟩ := pad_spec hp m (π.isOrder 4 ev.pool.value) (π.isOrder 5 s)
  have hpz : "0" ∈ ev.pool.value.keys.toFinset ∪ (c0.ct.parties ∪ c1.ct.parties) :=
    mem_union_left _ (by simpa using hp.zero_mem)
  have hlv := (H.toWf (mem_insert_self _ _)).level
  have hmin : min (min l0 l1) (min l0 l1) = min l0 l1 := min_self _
  have hc0 := h0.ctIs
  have hc1 := h1.ctIs
  rw [← insert_parties h0] at hc0
  rw [← insert_parties h1] at hc1
  have hk0 : insert "0" c0.ct.parties ⊆ ev.pool.value.keys.toFinset ∪ (c0.ct.parties ∪ c1.ct.parties) := by
    rw [insert_subset_iff]
    exact ⟨hpz, subset_union_left.trans subset_union_right⟩
  have hk1 : insert "0" c1.ct.parties ⊆ ev.pool.value.keys.toFinset ∪ (c0.ct.parties ∪ c1.ct.parties) := by
    rw [insert_subset_iff]
    exact ⟨hpz, subset_union_right.trans subset_union_right⟩
  -- the part common to the three cases
  have fin : ∀ (pool' tmp0 tmp1 : Ct C) (K0 K1 : Finset String) (l0' l1' : ℕ)
      (X Y : String → (i : ℕ) → Row C.N (C.q i)), min l0 l1 ≤ l0' → min l0 l1 ≤ l1' →
      CtIs tmp0 l0' K0 X → CtIs tmp1 l1' K1 Y → insert "0" c0.ct.parties ⊆ K0 →
      insert "0" c1.ct.parties ⊆ K1 → pool'.Wf C.lq false →
      (∀ id ∈ insert "0" c0.ct.parties, ∀ i ≤ min l0 l1,
        X id i = prm.alignedRows c0 c1.scale l0 C.lq id i) →
      (∀ id ∈ insert "0" c1.ct.parties, ∀ i ≤ min l0 l1,
        Y id i = prm.alignedRows c1 c0.scale l1 C.lq id i) →
      prm.alignOperands c0 c1 pool ctOut.scale π = .ok (pool', tmp0, tmp1) →
      ∃ pool r, ev.evaluateInPlace prm c0 c1 ctOut evaluate π =
          .ok ({ ev with pool := pool }, ⟨r, ctOut.scale⟩) ∧ pool.Wf C.lq false ∧
        CtIs r (min l0 l1) (insert "0" (c0.ct.parties ∪ c1.ct.parties))
          (evalF g c0.ct.parties c1.ct.parties (prm.alignedRows c0 c1.scale l0 C.lq)
            (prm.alignedRows c1 c0.scale l1 C.lq)) := by
    intro pool' tmp0 tmp1 K0 K1 l0' l1' X Y hl0 hl1 H0 H1 hK0 hK1 hpool hX hY heq
    obtain ⟨p0, p1, o, outIds, r, a1, a2, a3, a4, a5, a6⟩ := evalLoop_spec hev hl0 hl1 H0 H1 hK0 hK1
      (zero_notMem_parties _) (zero_notMem_parties _) H m0 m1 π
    refine ⟨pool', r, ?_, hpool, a6.congr fun id hid i hi => ?_⟩
    · unfold Ev.evaluateInPlace
      simp only [e0, e1, e, ep, h0.level, h1.level, hlv, hmin, lt_irrefl, if_false, Go.ok_bind,
        Go.pure_eq, heq, GoMap.deref_of_get? a1, GoMap.deref_of_get? a2,
        GoMap.deref_of_get? a3, a4, a5]
    · unfold evalF
      by_cases hz : id = "0"
      · subst hz
        simp only [if_true]
        rw [hX _ (mem_insert_self _ _) i hi, hY _ (mem_insert_self _ _) i hi]
      · have hid' := (mem_insert.mp hid).resolve_left hz
        simp only [hz, if_false]
        by_cases i0 : id ∈ c0.ct.parties
        · rw [hX _ (mem_insert_of_mem i0) i hi]
          by_cases i1 : id ∈ c1.ct.parties
          · rw [hY _ (mem_insert_of_mem i1) i hi]
          · simp [i0, i1]
        · rw [hY _ (mem_insert_of_mem ((mem_union.mp hid').resolve_left i0)) i hi]
          simp [i0]
  by_cases hA : c0.scale < c1.scale ∧ 1 < prm.ratio c1.scale c0.scale
  · obtain ⟨t, et, Ht⟩ := multByConst_spec hC prm (ct0 := c0) (out := ⟨pool, ctOut.scale⟩) hc0 Hp
      (mem_insert_self _ _) hk0 (.f64 (prm.ratio c1.scale c0.scale)) (π.sub 7)
    refine fin t t c1.ct _ _ C.lq l1 _ _ (min_le_left _ _ |>.trans hl0) (min_le_right _ _) Ht hc1
      hk0 subset_rfl (Ht.toWf hpz) ?_ ?_ ?_
    · intro id hid i hi
      funext j
      simp only [mixF, hid, true_and, CPar.alignedRows, CPar.align]
      rw [if_pos (by omega), if_pos hA]
    · intro id hid i hi
      funext j
      simp only [CPar.alignedRows, CPar.align]
      rw [if_neg (fun h => absurd h.1 (not_lt.mpr hA.1.le)), mul_one]
    · unfold CPar.alignOperands
      rw [if_pos hA]
      simp only [et, Go.ok_bind, Go.pure_eq]
  · by_cases hB : c1.scale < c0.scale ∧ 1 < prm.ratio c0.scale c1.scale
    · obtain ⟨t, et, Ht⟩ := multByConst_spec hC prm (ct0 := c1) (out := ⟨pool, ctOut.scale⟩) hc1 Hp
        (mem_insert_self _ _) hk1 (.f64 (prm.ratio c0.scale c1.scale)) (π.sub 8)
      refine fin t c0.ct t _ _ l0 C.lq _ _ (min_le_left _ _) (min_le_right _ _ |>.trans hl1) hc0 Ht
        subset_rfl hk1 (Ht.toWf hpz) ?_ ?_ ?_
      · intro id hid i hi
        funext j
        simp only [CPar.alignedRows, CPar.align]
        rw [if_neg hA, mul_one]
      · intro id hid i hi
        funext j
        simp only [mixF, hid, true_and, CPar.alignedRows, CPar.align]
        rw [if_pos (by omega), if_pos hB]
      · unfold CPar.alignOperands
        rw [if_neg hA, if_pos hB]
        simp only [et, Go.ok_bind, Go.pure_eq]
    · refine fin pool c0.ct c1.ct _ _ l0 l1 _ _ (min_le_left _ _) (min_le_right _ _) hc0 hc1
        subset_rfl subset_rfl (Hp.toWf hpz) ?_ ?_ ?_
      · intro id hid i hi
        funext j
        simp only [CPar.alignedRows, CPar.align]
        rw [if_neg hA, mul_one]
      · intro id hid i hi
        funext j
        simp only [CPar.alignedRows, CPar.align]
        rw [if_neg hB, mul_one]
      · unfold CPar.alignOperands
        rw [if_neg hA, if_neg hB]
        rfl

end MK
