import Verif.Props.LrLevels

/-!
# What the evaluator computes, exactly

`XVal` is everything a ciphertext consists of, without the order of its map and without what its
polynomials hold above the level: level, participants, components, scale.  `exactHE` gives the four
operations of the programs as functions on such values, in closed form.  `realHE_exact`: the evaluator
computes these functions, whatever its scratch memory contains and whatever the iteration orders are.
-/

noncomputable section

namespace MK

open Finset

variable {C : Ctx}

/-! ## The closed forms depend only on the rows up to the level -/

theorem keySum_agree {S : Finset String} {key : String → KeyVal C} {h h' : String → ℕ → Nega C.N ℤ}
    {L : ℕ} (hh : ∀ id ∈ S, ∀ k < C.beta L, h id k = h' id k) :
    (keySum C S key h).Agree L (keySum C S key h') :=
  ⟨fun k hk i _ => sum_congr rfl fun id hid => by rw [hh id hid k hk],
    fun k hk i _ => sum_congr rfl fun id hid => by rw [hh id hid k hk]⟩

/-- Two multiplications with the same keys, parties and level agree where the components and digits
do. -/
theorem MulIn.res_congr (hC : C.Good) {L : ℕ} {S0 S1 : Finset String}
    {c0 c0' c1 c1' : String → (i : ℕ) → Nega C.N (ZMod (C.q i))} {h0 h0' h1 h1' : String → ℕ → Nega C.N ℤ}
    (d b v : String → KeyVal C) (u : KeyVal C)
    (e0 : ∀ id ∈ insert "0" S0, ∀ i ≤ L, c0 id i = c0' id i)
    (e1 : ∀ id ∈ insert "0" S1, ∀ i ≤ L, c1 id i = c1' id i)
    (d0 : ∀ id ∈ S0, ∀ k < C.beta L, h0 id k = h0' id k)
    (d1 : ∀ id ∈ S1, ∀ k < C.beta L, h1 id k = h1' id k) (id : String) {i : ℕ} (hi : i ≤ L) :
    (⟨L, S0, S1, c0, c1, h0, h1, d, b, v, u⟩ : MulIn C).res id i =
      (⟨L, S0, S1, c0', c1', h0', h1', d, b, v, u⟩ : MulIn C).res id i := by
  have hyh : ∀ id ∈ S0, ∀ i ≤ L, ext C L (h0 id) (keySum C S1 b h1) i =
      ext C L (h0' id) (keySum C S1 b h1') i := fun id hid i hi =>
    ext_congr (d0 id hid) (keySum_agree d1) hi
  have hdig : ∀ id ∈ S0, ∀ k < C.beta L, digit C L (ext C L (h0 id) (keySum C S1 b h1)) k =
      digit C L (ext C L (h0' id) (keySum C S1 b h1')) k := fun id hid k hk =>
    digit_congr hC.alpha_pos' hk (hyh id hid)
  have t0 : (if id ∈ S0 then c1 "0" i * c0 id i else 0) = if id ∈ S0 then c1' "0" i * c0' id i else 0 := by
    split
    · rename_i h
      rw [e0 id (mem_insert_of_mem h) i hi, e1 "0" (mem_insert_self _ _) i hi]
    · rfl
  have t1 : (if id ∈ S1 then c0 "0" i * c1 id i else 0) = if id ∈ S1 then c0' "0" i * c1' id i else 0 := by
    split
    · rename_i h
      rw [e1 id (mem_insert_of_mem h) i hi, e0 "0" (mem_insert_self _ _) i hi]
    · rfl
  have t2 : (if id ∈ S1 then ext C L (h1 id) (keySum C S0 d h0) i else 0) =
      if id ∈ S1 then ext C L (h1' id) (keySum C S0 d h0') i else 0 := by
    split
    · rename_i h; exact ext_congr (d1 id h) (keySum_agree d0) hi
    · rfl
  have t3 : ∑ j ∈ S0, ext C L (digit C L (ext C L (h0 j) (keySum C S1 b h1))) (v j) i =
      ∑ j ∈ S0, ext C L (digit C L (ext C L (h0' j) (keySum C S1 b h1'))) (v j) i :=
    sum_congr rfl fun j hj => ext_congr (hdig j hj) (KeyVal.Agree.refl _ _) hi
  have t4 : (if id ∈ S0 then ext C L (digit C L (ext C L (h0 id) (keySum C S1 b h1))) u i else 0) =
      if id ∈ S0 then ext C L (digit C L (ext C L (h0' id) (keySum C S1 b h1'))) u i else 0 := by
    split
    · rename_i h; exact ext_congr (hdig id h) (KeyVal.Agree.refl _ _) hi
    · rfl
  unfold MulIn.res MulIn.out MulIn.tensor MulIn.X MulIn.hy MulIn.yhat MulIn.Y
  dsimp only
  rw [e0 "0" (mem_insert_self _ _) i hi, e1 "0" (mem_insert_self _ _) i hi] at *
  rw [t0, t1, t2, t3, t4]

theorem rotBitsBy_congr (hC : C.Good) {L : ℕ} {S : Finset String} {rk : ℕ → String → RotKey C}
    {a : ℕ → SwKey C} (r : ℕ) : ∀ (k : ℕ) (c c' : String → (i : ℕ) → Nega C.N (ZMod (C.q i))),
    (∀ id ∈ insert "0" S, ∀ i ≤ L, c id i = c' id i) → ∀ id ∈ insert "0" S, ∀ i ≤ L,
      rotBitsBy C L S rk a r k c id i = rotBitsBy C L S rk a r k c' id i := by
  induction r using Nat.strong_induction_on with
  | _ r ih =>
    intro k c c' h
    rw [rotBitsBy, rotBitsBy.eq_1 (c := c')]
    by_cases hr : 0 < r
    · rw [if_pos hr, if_pos hr]
      refine ih _ (by omega) _ _ _ fun id hid i hi => ?_
      split
      · exact rotBy_congr hC h hid hi
      · exact h id hid i hi
    · rw [if_neg hr, if_neg hr]
      exact h

theorem rotRes_congr (hC : C.Good) {crs : CRS C} {L : ℕ} {S : Finset String}
    {rk : ℕ → String → RotKey C} {a : ℕ → SwKey C} {r : ℕ}
    {c c' : String → (i : ℕ) → Nega C.N (ZMod (C.q i))}
    (h : ∀ id ∈ insert "0" S, ∀ i ≤ L, c id i = c' id i) {id : String} (hid : id ∈ insert "0" S)
    {i : ℕ} (hi : i ≤ L) : rotRes C crs L S rk a r c id i = rotRes C crs L S rk a r c' id i := by
  unfold rotRes
  split
  · exact h id hid i hi
  · split
    · exact rotBy_congr hC h hid hi
    · exact rotBitsBy_congr hC r 1 c c' h id hid i hi

/-- Closed form of `MulPtxtNew`. -/
theorem mulPtxtNew_spec (hC : C.Good) {prm : CPar C} (ev : Ev C) {ct : CCt C} {L n : ℕ}
    (w : ct.ct.Wf L false) (pt : RQ C) (ptScale : ℚ)
    (hn : RescaleBy prm.fl C.q prm.scale (prm.fl.rnd (ct.scale * ptScale)) L n) (π : Sched) :
    ∃ e1 r, ev.MulPtxtNew prm ct pt ptScale π = .ok (e1,
        ⟨r, scaleSeq prm.fl C.q L (prm.fl.rnd (ct.scale * ptScale)) n⟩) ∧
      CtIs r (L - n) (insert "0" ct.ct.parties) (fun id => divSeq (fun i =>
        ((⟨ct.ct.rowsOf id i⟩ : Nega C.N (ZMod (C.q i))) * pt.elem i).coeff) L n) := by
  obtain ⟨pool, r0, e0, hr0⟩ := mulPtxtCore_spec hC (prm := prm) (ev := ev) w pt ptScale (π.sub 0)
  obtain ⟨err, pool', r, e1, hr, _⟩ := rescaleSelf_spec (prm := prm) (ms := prm.scale)
    (ct := ⟨r0, prm.fl.rnd (ct.scale * ptScale)⟩) (ev := { ev with polyQ := pool })
    (mem_insert_self _ _) hr0 hn (π.sub 1)
  refine ⟨{ ev with polyQ := pool' }, r, ?_, hr⟩
  unfold Ev.MulPtxtNew
  simp only [e0, Go.ok_bind, e1, Go.pure_eq]

namespace Lr

/-! ## Values -/

/-- A ciphertext without representation details. -/
structure XVal (C : Ctx) where
  lvl : ℕ
  S : Finset String
  comp : String → (i : ℕ) → Nega C.N (ZMod (C.q i))
  scale : ℚ

/-- The product of two values as ring elements. -/
def XVal.mulIn (a b : XVal C) (rk : String → RelinKey C) (u : SwKey C) : MulIn C where
  L := min a.lvl b.lvl
  S0 := a.S
  S1 := b.S
  c0 := a.comp
  c1 := b.comp
  h0 id := digit C a.lvl (a.comp id)
  h1 id := digit C b.lvl (b.comp id)
  d id := (rk id).d.kv
  b id := (rk id).b.kv
  v id := (rk id).v.kv
  u := u.kv

/-- The component of party `id`, `0` if it has none. -/
def XVal.part (a : XVal C) (id : String) (i : ℕ) : Nega C.N (ZMod (C.q i)) :=
  if id ∈ insert "0" a.S then a.comp id i else 0

open Classical in
/-- The four operations in closed form; `rk`, `rrk` are the participants' relinearization and rotation
keys, `u` and `a` the vectors of the CRS. -/
def exactHE (prm : CPar C) (rk : String → RelinKey C) (u : SwKey C) (rrk : ℕ → String → RotKey C)
    (ra : ℕ → SwKey C) : HE Option (XVal C) (RQ C × ℚ) where
  mulRelin _ a b :=
    let l := min a.lvl b.lvl
    if RescaleBy prm.fl C.q prm.scale (prm.fl.rnd (a.scale * b.scale)) l 1 then
      some ⟨l - 1, a.S ∪ b.S,
        fun id i => ⟨divSeq (fun i => ((a.mulIn b rk u).res id i).coeff) l 1 i⟩,
        prodScale prm.fl C.q l a.scale b.scale⟩
    else none
  mulPtxt a p :=
    if RescaleBy prm.fl C.q prm.scale (prm.fl.rnd (a.scale * p.2)) a.lvl 1 then
      some ⟨a.lvl - 1, a.S, fun id i => ⟨divSeq (fun i => (a.comp id i * p.1.elem i).coeff) a.lvl 1 i⟩,
        prodScale prm.fl C.q a.lvl a.scale p.2⟩
    else none
  add a b :=
    if alignInt prm.fl a.scale b.scale = 1 ∧ alignInt prm.fl b.scale a.scale = 1 then
      some ⟨min a.lvl b.lvl, a.S ∪ b.S, fun id i => a.part id i + b.part id i, max a.scale b.scale⟩
    else none
  rotate a k := some ⟨a.lvl, a.S, rotRes C prm.crs a.lvl a.S rrk ra (slotIdx C.N k) a.comp, a.scale⟩

/-- The ciphertext is this value, with parties in `S`. -/
structure IsX (S : Finset String) (c : CCt C) (x : XVal C) : Prop where
  ct : CtIs c.ct x.lvl (insert "0" x.S) fun id i => (x.comp id i).coeff
  lt : x.lvl < C.nQ
  zero : "0" ∉ x.S
  sub : x.S ⊆ S
  scale : c.scale = x.scale

variable {S : Finset String}

theorem IsX.wf {c : CCt C} {x : XVal C} (h : IsX S c x) : c.ct.Wf x.lvl false :=
  h.ct.toWf (mem_insert_self _ _)

theorem IsX.parties {c : CCt C} {x : XVal C} (h : IsX S c x) : c.ct.parties = x.S :=
  h.ct.parties h.zero

theorem IsX.comp {c : CCt C} {x : XVal C} (h : IsX S c x) {id : String} (hid : id ∈ insert "0" x.S)
    {i : ℕ} (hi : i ≤ x.lvl) : c.ct.comp id i = x.comp id i := h.ct.comp hid hi

theorem IsX.rowsOf {c : CCt C} {x : XVal C} (h : IsX S c x) (id : String) {i : ℕ} (hi : i ≤ x.lvl) :
    c.ct.rowsOf id i = (x.part id i).coeff := by
  unfold XVal.part Ct.rowsOf
  by_cases hid : id ∈ insert "0" x.S
  · obtain ⟨p, hp, -, -, hr⟩ := h.ct.get hid
    rw [hp, if_pos hid]
    exact hr i hi
  · rw [if_neg hid, (GoMap.get?_eq_none_iff _ _).mpr fun hk => hid ((h.ct.mem id).mp hk)]
    rfl

/-- Two ciphertexts that are the same value are the same Go value. -/
theorem IsX.same {c c' : CCt C} {x : XVal C} (h : IsX S c x) (h' : IsX S c' x) :
    c.ct.Same c'.ct ∧ c.scale = c'.scale := ⟨h.ct.same h'.ct, h.scale.trans h'.scale.symm⟩

/-- The value of a ciphertext. -/
def XVal.of (lvl : ℕ) (c : CCt C) : XVal C := ⟨lvl, c.ct.parties, c.ct.comp, c.scale⟩

theorem IsX.of {c : CCt C} {L : ℕ} (w : c.ct.Wf L false) (hL : L < C.nQ) (hS : c.ct.parties ⊆ S) :
    IsX S c (XVal.of L c) := ⟨w.comps, hL, zero_notMem_parties _, hS, rfl⟩

/-- What the operations need of the parameters and key sets. -/
structure XKeys (prm : CPar C) (S : Finset String) (rkSet : RotationKeySet (RotKey C)) (u : SwKey C)
    (rrk : ℕ → String → RotKey C) (ra : ℕ → SwKey C) : Prop where
  pow : ∃ logN, C.N = 2 ^ logN ∧ 1 ≤ logN
  good : C.Good
  crs : prm.crs.get? (-1) = some u
  rot : ∀ k idx, rotNeeds prm.crs (slotIdx C.N k) idx → KeysAt prm.crs rkSet S rrk ra idx

variable {prm : CPar C} {rkSet : RotationKeySet (RotKey C)} {rk : String → RelinKey C} {u : SwKey C}
  {rrk : ℕ → String → RotKey C} {ra : ℕ → SwKey C}

/-- No alignment, for any rounding. -/
theorem align_one {s s' : ℚ} (h : alignInt prm.fl s s' = 1) (l lq i : ℕ) (j : Fin C.N) :
    prm.align s s' l lq i j = 1 := by
  unfold CPar.align
  rw [if_neg]
  rintro ⟨h1, h2⟩
  have h2 : 1 < ⌊prm.fl.rnd (s' / s)⌋ := h2
  unfold alignInt at h
  rw [if_pos ⟨h1, by omega⟩] at h
  omega

/-- What `AddNew` returns when nothing is aligned, for any rounding. -/
theorem addNew_plain (hC : C.Good) {ev : Ev C} {a b : CCt C} {la lb : ℕ} (ok : ev.Ok)
    (wa : a.ct.Wf la false) (wb : b.ct.Wf lb false) (hla : la < C.nQ) (hlb : lb < C.nQ)
    (ab : alignInt prm.fl a.scale b.scale = 1) (ba : alignInt prm.fl b.scale a.scale = 1) (π : Sched) :
    ∃ pool r, ev.AddNew prm a b π = .ok ({ ev with pool := pool }, ⟨r, max a.scale b.scale⟩) ∧
      pool.Wf C.lq false ∧
      CtIs r (min la lb) (insert "0" (a.ct.parties ∪ b.ct.parties)) fun id i j =>
        a.ct.rowsOf id i j + b.ct.rowsOf id i j := by
  obtain ⟨o, eo, Ho⟩ := newCiphertextBinary_spec wa wb (π.sub 0)
  obtain ⟨pool, r, e, hp, hr⟩ := evaluateInPlace_spec hC prm ev (ctOut := ⟨o, max a.scale b.scale⟩)
    wa wb (le_lq hla) (le_lq hlb) ok.pool Ho (evaluate := RPoly.addLvl)
    (g := fun i x y => x + y) (fun _ _ _ _ => rfl) (π.sub 1)
  refine ⟨pool, r, ?_, hp, hr.congr fun id hid i _ => ?_⟩
  · unfold Ev.AddNew
    rw [eo, Go.ok_bind, e]
  · have hx : prm.alignedRows a b.scale la C.lq id i = a.ct.rowsOf id i := by
      funext j; unfold CPar.alignedRows; rw [align_one ab, mul_one]
    have hy : prm.alignedRows b a.scale lb C.lq id i = b.ct.rowsOf id i := by
      funext j; unfold CPar.alignedRows; rw [align_one ba, mul_one]
    have goal : evalF (fun i x y => x + y) a.ct.parties b.ct.parties
        (prm.alignedRows a b.scale la C.lq) (prm.alignedRows b a.scale lb C.lq) id i =
        prm.alignedRows a b.scale la C.lq id i + prm.alignedRows b a.scale lb C.lq id i := by
      unfold evalF
      by_cases hz : id = "0"
      · rw [if_pos hz]
      · rw [if_neg hz]
        by_cases h0 : id ∈ a.ct.parties
        · rw [if_neg (not_not.mpr h0)]
          by_cases h1 : id ∈ b.ct.parties
          · rw [if_neg (not_not.mpr h1)]
          · rw [if_pos h1, aligned_absent hz h1, add_zero]
        · rw [if_pos h0, aligned_absent hz h0, zero_add]
    rw [goal, hx, hy]
    rfl

theorem exact_mul (E : XKeys prm S rkSet u rrk ra) (sch : ℕ → Sched) (same : Bool)
    {a b : CCt C} {x y : XVal C} (hsame : same = true → a = b) (ha : IsX S a x) (hb : IsX S b y) :
    (runRel S rk).rel (IsX S) ((realHE prm rkSet sch).mulRelin same a b)
      ((exactHE prm rk u rrk ra).mulRelin same x y) := by
  intro v hv m hm
  simp only [exactHE] at hv
  split at hv
  swap
  · cases hv
  rename_i hby
  cases hv
  have hpos := RescaleBy.pos hby
  rw [← ha.scale, ← hb.scale] at hby
  have hsub : a.ct.parties ∪ b.ct.parties ⊆ S := by
    rw [ha.parties, hb.parties]; exact union_subset ha.sub hb.sub
  obtain ⟨ev', rlk', r, e1, hok, hrlk, hr⟩ := mulRelinNew_spec E.good hm.ev same hsame ha.wf hb.wf ha.lt
    hb.lt E.crs (RlkFor.mono hsub hm.rlk) hby (sch m.tick)
  rw [ha.parties, hb.parties] at hr
  have w := hr.toWf (mem_insert_self _ _)
  have hlt : min x.lvl y.lvl < C.nQ := lt_of_le_of_lt (min_le_left _ _) ha.lt
  refine ⟨⟨r, scaleSeq prm.fl C.q (min x.lvl y.lvl) (prm.fl.rnd (a.scale * b.scale)) 1⟩,
    ⟨ev', rlk', m.tick + 1, m.prods ++ [(min x.lvl y.lvl, min x.lvl y.lvl - 1)]⟩, ?_,
    ⟨hok, ⟨?_, ?_, ?_⟩, ?_⟩, ?_, ?_, ?_, ?_, ?_⟩
  · show (m.ev.MulRelinNew prm a b same m.rlk (sch m.tick) >>= _) = _
    rw [e1]
    simp only [Go.ok_bind, ha.wf.level, hb.wf.level, w.level, Go.pure_eq]
  · intro id hi
    show rlk'.value.get? id = _
    rw [hrlk.1]; exact hm.rlk.keys id hi
  · intro id hi; rw [hrlk.2.1]; exact hm.rlk.pool0 id hi
  · intro id hi; rw [hrlk.2.2]; exact hm.rlk.pool1 id hi
  · intro e he
    rw [List.mem_append, List.mem_singleton] at he
    rcases he with he | rfl
    · exact hm.prods e he
    · show min x.lvl y.lvl = min x.lvl y.lvl - 1 + 1
      omega
  · refine hr.congr fun id hid i hi => ?_
    refine divSeq_congr (L := min x.lvl y.lvl) (fun j hj => ?_) 1 i (hi.trans (Nat.sub_le _ _))
    congr 1
    unfold mulInAt mulInOf XVal.mulIn
    rw [ha.parties, hb.parties]
    exact MulIn.res_congr E.good _ _ _ _
      (fun id hid i hi => ha.comp hid (hi.trans (min_le_left _ _)))
      (fun id hid i hi => hb.comp hid (hi.trans (min_le_right _ _)))
      (fun id hid k hk => digit_congr E.good.alpha_pos'
        (lt_of_lt_of_le hk (beta_mono (min_le_left _ _))) fun i hi =>
          ha.comp (mem_insert_of_mem hid) hi)
      (fun id hid k hk => digit_congr E.good.alpha_pos'
        (lt_of_lt_of_le hk (beta_mono (min_le_right _ _))) fun i hi =>
          hb.comp (mem_insert_of_mem hid) hi) id hj
  · show min x.lvl y.lvl - 1 < C.nQ
    omega
  · show "0" ∉ x.S ∪ y.S
    rw [notMem_union]; exact ⟨ha.zero, hb.zero⟩
  · exact union_subset ha.sub hb.sub
  · show scaleSeq prm.fl C.q _ _ 1 = prodScale _ _ _ _ _
    rw [ha.scale, hb.scale]; rfl

/-- **The evaluator computes exactly the closed form**, operation by operation, for all memory
contents and iteration orders. -/
theorem realHE_exact (E : XKeys prm S rkSet u rrk ra) (sch : ℕ → Sched) :
    HESim (runRel S rk) (realHE prm rkSet sch) (exactHE prm rk u rrk ra) (IsX S) Eq where
  mul ha hb := exact_mul E sch false (by simp) ha hb
  sq ha := exact_mul E sch true (fun _ => rfl) ha ha
  mulPtxt {a x p p'} ha hp := by
    subst hp
    intro v hv m hm
    simp only [exactHE] at hv
    split at hv
    swap
    · cases hv
    rename_i hby
    cases hv
    have hpos := RescaleBy.pos hby
    rw [← ha.scale] at hby
    obtain ⟨ev', r, e1, hr⟩ := mulPtxtNew_spec E.good m.ev ha.wf p.1 p.2 hby (sch m.tick)
    rw [ha.parties] at hr
    have w := hr.toWf (mem_insert_self _ _)
    have hl := ha.lt
    refine ⟨⟨r, scaleSeq prm.fl C.q x.lvl (prm.fl.rnd (a.scale * p.2)) 1⟩,
      ⟨ev', m.rlk, m.tick + 1, m.prods ++ [(x.lvl, x.lvl - 1)]⟩, ?_,
      ⟨mulPtxtNew_ok _ hm.ev _ _ _ _ _ e1, hm.rlk, ?_⟩, ?_, ?_, ha.zero, ha.sub, ?_⟩
    · show (m.ev.MulPtxtNew prm a p.1 p.2 (sch m.tick) >>= _) = _
      rw [e1]
      simp only [Go.ok_bind, ha.wf.level, w.level, Go.pure_eq]
    · intro e he
      rw [List.mem_append, List.mem_singleton] at he
      rcases he with he | rfl
      · exact hm.prods e he
      · show x.lvl = x.lvl - 1 + 1
        omega
    · refine hr.congr fun id hid i hi => ?_
      refine divSeq_congr (L := x.lvl) (fun j hj => ?_) 1 i (hi.trans (Nat.sub_le _ _))
      rw [ha.rowsOf id hj, XVal.part, if_pos hid]
    · show x.lvl - 1 < C.nQ
      omega
    · show scaleSeq prm.fl C.q _ _ 1 = prodScale _ _ _ _ _
      rw [ha.scale]; rfl
  add {a b x y} ha hb := by
    intro v hv m hm
    simp only [exactHE] at hv
    split at hv
    swap
    · cases hv
    rename_i hal
    cases hv
    rw [← ha.scale, ← hb.scale] at hal
    obtain ⟨pool, r, e1, hp, hr⟩ := addNew_plain E.good hm.ev ha.wf hb.wf ha.lt hb.lt hal.1 hal.2 (sch m.tick)
    rw [ha.parties, hb.parties] at hr
    refine ⟨⟨r, max a.scale b.scale⟩, ⟨{ m.ev with pool := pool }, m.rlk, m.tick + 1, m.prods⟩, ?_,
      ⟨addNew_ok _ hm.ev _ _ _ _ e1, hm.rlk, hm.prods⟩, ?_,
      lt_of_le_of_lt (min_le_left _ _) ha.lt, ?_, union_subset ha.sub hb.sub, ?_⟩
    · show (m.ev.AddNew prm a b (sch m.tick) >>= _) = _
      rw [e1]
      simp only [Go.ok_bind, Go.pure_eq]
    · refine hr.congr fun id hid i hi => ?_
      funext j
      rw [ha.rowsOf id (hi.trans (min_le_left _ _)), hb.rowsOf id (hi.trans (min_le_right _ _))]
      rfl
    · show "0" ∉ x.S ∪ y.S
      rw [notMem_union]; exact ⟨ha.zero, hb.zero⟩
    · show max a.scale b.scale = max x.scale y.scale
      rw [ha.scale, hb.scale]
  rotate {a x} k ha := by
    intro v hv m hm
    simp only [exactHE] at hv
    cases hv
    obtain ⟨logN, hN, hlog⟩ := E.pow
    have hsub : a.ct.parties ⊆ S := by rw [ha.parties]; exact ha.sub
    obtain ⟨ev', r, e1, hok, hr⟩ := rotateNew_spec hN hlog E.good hm.ev ha.lt ha.wf k (rk := rrk) (a := ra)
      (fun idx h => ⟨(E.rot k idx h).1, fun id hi => (E.rot k idx h).2 id (hsub hi)⟩) (sch m.tick)
    rw [ha.parties] at hr
    refine ⟨⟨r, a.scale⟩, ⟨ev', m.rlk, m.tick + 1, m.prods⟩, ?_, ⟨hok, hm.rlk, hm.prods⟩, ?_, ha.lt, ha.zero,
      ha.sub, ha.scale⟩
    · show (m.ev.RotateNew prm a k rkSet (sch m.tick) >>= _) = _
      rw [e1]
      simp only [Go.ok_bind, Go.pure_eq]
    · refine hr.congr fun id hid i hi => ?_
      rw [rotRes_congr E.good (fun id hid i hi => ha.comp hid hi) hid hi]

/-! ## Where the closed forms are defined -/

/-- Level and scale of a value as described. -/
def MetaX {n : ℕ} (x : XVal C) (v : AVal n) : Prop := x.lvl = v.lvl ∧ x.scale = v.scale

/-- `exactHE` is defined where `boundHE` is. -/
theorem exact_bound (prm : CPar C) (n : ℕ) [NeZero n] (c : ℕ) (D T B : ℤ) (rk : String → RelinKey C)
    (u : SwKey C) (rrk : ℕ → String → RotKey C) (ra : ℕ → SwKey C) :
    HESim optRel (exactHE prm rk u rrk ra) (boundHE prm n c D T B) MetaX
      (fun p _ => p.2 = prm.scale) where
  mul := by
    rintro a b a' b' ⟨l1, s1⟩ ⟨l2, s2⟩ v hv
    simp only [boundHE] at hv
    split at hv
    swap
    · cases hv
    rename_i hby
    cases hv
    rw [← l1, ← l2, ← s1, ← s2] at hby
    refine ⟨_, by simp only [exactHE]; rw [if_pos hby], ?_⟩
    simp only [MetaX, l1, l2, s1, s2, and_self]
  sq := by
    rintro a a' ⟨l1, s1⟩ v hv
    simp only [boundHE] at hv
    split at hv
    swap
    · cases hv
    rename_i hby
    cases hv
    rw [← l1, ← s1] at hby
    refine ⟨_, by simp only [exactHE]; rw [if_pos hby], ?_⟩
    simp only [MetaX, l1, s1, and_self]
  mulPtxt := by
    rintro a a' p p' ⟨l1, s1⟩ hp v hv
    simp only [boundHE] at hv
    split at hv
    swap
    · cases hv
    rename_i hby
    cases hv
    rw [← l1, ← s1] at hby
    nth_rw 2 [← hp] at hby
    refine ⟨_, by simp only [exactHE]; rw [if_pos hby], ?_⟩
    simp only [MetaX, l1, s1, hp, and_self]
  add := by
    rintro a b a' b' ⟨l1, s1⟩ ⟨l2, s2⟩ v hv
    simp only [boundHE] at hv
    split at hv
    swap
    · cases hv
    rename_i hal
    cases hv
    rw [← s1, ← s2] at hal
    refine ⟨_, by simp only [exactHE]; rw [if_pos hal], ?_⟩
    simp only [MetaX, l1, l2, s1, s2, and_self]
  rotate := by
    rintro a a' k ⟨l1, s1⟩ v hv
    simp only [boundHE] at hv
    cases hv
    exact ⟨_, rfl, l1, s1⟩

end Lr

end MK
