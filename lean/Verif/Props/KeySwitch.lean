import Verif.RotSpec
import Verif.Props.ExKeys
import Mathlib.Algebra.Order.Floor.Ring

/-!
# C21, C23, C24, C27 – C30, C36 for the functions of mkrlwe/keyswitch.go and
mkrlwe/keyswitch_hoisted.go
-/

noncomputable section

namespace MK

open Finset

variable {C : Ctx}

/-! ## Phases of results -/

theorem phase_eq_ringPhase {ct : Ct C} (h0 : "0" ∈ ct.value.keys) (s : String → Nega C.N ℤ)
    (i : ℕ) : ct.phase s i = ringPhase ct.parties ct.comp s i := by
  unfold Ct.phase ringPhase Ct.parties
  rw [← Finset.add_sum_erase _ _ (List.mem_toFinset.mpr h0)]
  congr 1
  · unfold Ct.secretOf; rw [if_pos rfl, map_one, mul_one]
  · refine Finset.sum_congr rfl fun id hid => ?_
    unfold Ct.secretOf; rw [if_neg (mem_erase.mp hid).1]

theorem ringPhase_congr {S : Finset String}
    {c c' : String → (i : ℕ) → Nega C.N (ZMod (C.q i))} {s : String → Nega C.N ℤ} {i : ℕ}
    (h0 : c "0" i = c' "0" i) (h : ∀ id ∈ S, c id i = c' id i) :
    ringPhase S c s i = ringPhase S c' s i := by
  unfold ringPhase
  rw [h0]
  congr 1
  exact Finset.sum_congr rfl fun id hid => by rw [h id hid]

theorem CtIs.parties {ct : Ct C} {L : ℕ} {S : Finset String} (hS : "0" ∉ S)
    {F : String → (i : ℕ) → Row C.N (C.q i)} (H : CtIs ct L (insert "0" S) F) :
    ct.parties = S := by
  ext id
  rw [mem_parties, H.mem, mem_insert]
  constructor
  · rintro ⟨h | h, hne⟩
    · exact absurd h hne
    · exact h
  · intro h
    exact ⟨Or.inr h, fun hz => hS (hz ▸ h)⟩

theorem CtIs.phase {ct : Ct C} {L : ℕ} {S : Finset String} (hS : "0" ∉ S)
    {F : String → (i : ℕ) → Nega C.N (ZMod (C.q i))}
    (H : CtIs ct L (insert "0" S) fun id i => (F id i).coeff) (s : String → Nega C.N ℤ) {i : ℕ}
    (hi : i ≤ L) : ct.phase s i = ringPhase S F s i := by
  rw [phase_eq_ringPhase ((H.mem _).mpr (mem_insert_self _ _)), H.parties hS]
  refine ringPhase_congr ?_ fun id hid => ?_
  · exact H.comp (mem_insert_self _ _) hi
  · exact H.comp (mem_insert_of_mem hid) hi

theorem zero_notMem_parties (ct : Ct C) : "0" ∉ ct.parties := fun h => (mem_parties.mp h).2 rfl

/-! ## C36 -/

/-- **C36 (automorphism).** For every odd `g` and every power-of-two `N` the index/sign loop
applied to one row computes the image of the row's polynomial under a ring homomorphism of
`ℤ_q[X]/(X^N+1)` that fixes the constants and sends `X` to `X^g`; stale output data does not
matter. -/
theorem C36_permutation_is_automorphism {N m k : ℕ} [NeZero N] (hN : N = 2 ^ k) {g : ℕ}
    (hg : Odd g) :
    ∃ σ : Nega.Quot N (ZMod m) →+* Nega.Quot N (ZMod m),
      σ (Nega.x N (ZMod m)) = Nega.x N (ZMod m) ^ g ∧
      (∀ c : ZMod m, σ (algebraMap _ _ c) = algebraMap _ _ c) ∧
      ∀ a out : Row N m, Nega.toQuot (⟨permRow g a out⟩ : Nega N (ZMod m)) =
        σ (Nega.toQuot ⟨a⟩) :=
  ⟨Nega.quotAuto g hg, Nega.quotAuto_x g hg, Nega.quotAuto_algebraMap g hg, fun a out => by
    rw [permRow_auto hN hg, Nega.quotAuto_toQuot]⟩

/-- **C36 (positions).** The loop index maps the positions `0..N-1` bijectively to the written
positions, so that every output position is written exactly once. -/
theorem C36_positions_once {N k : ℕ} [NeZero N] (hN : N = 2 ^ k) {g : ℕ} (hg : Odd g)
    (n : Fin N) : ∃! i : Fin N, permIdx N g i = n := by
  subst hN
  have hinj : Function.Injective fun i : Fin (2 ^ k) =>
      (⟨permIdx (2 ^ k) g i, permIdx_lt g i⟩ : Fin (2 ^ k)) := fun i j h =>
    Fin.ext (permIdx_inj hg i j i.isLt j.isLt (Fin.mk.inj h))
  obtain ⟨i, hi⟩ := Finite.injective_iff_surjective.mp hinj n
  refine ⟨i, congrArg Fin.val hi, fun j hj => ?_⟩
  apply hinj
  rw [hi]
  exact Fin.ext hj

/-- **C36 (words).** With `tmp ∈ {0,1}` and a reduced input the word written is at most `q` and
congruent to `±a`; it is `q` itself exactly for a negated zero. -/
theorem C36_word {q a tmp : ℕ} (ha : a < q) (ht : tmp ≤ 1) :
    permWord q a tmp ≤ q ∧ (permWord q a tmp : ZMod q) = (if tmp = 0 then (a : ZMod q) else -a) ∧
      (permWord q a tmp = q ↔ tmp = 1 ∧ a = 0) := by
  have hx : tmp = 0 ∨ tmp = 1 := by omega
  rcases hx with rfl | rfl
  · have h : permWord q a 0 = a := by simp [permWord]
    rw [h]
    exact ⟨ha.le, by simp, by omega⟩
  · have h : permWord q a 1 = q - a := by simp [permWord]
    rw [h]
    refine ⟨Nat.sub_le _ _, ?_, by omega⟩
    rw [Nat.cast_sub ha.le]
    simp

theorem permTmp_le (N g i : ℕ) : permTmp N g i ≤ 1 := Nat.and_le_right

/-- `X ↦ X^3` on four coefficients. -/
example : permRow (N := 4) (m := 17) 3 ![1, 2, 3, 4] ![9, 9, 9, 9] = ![1, 4, -3, 2] := by
  decide

example : permWord 17 0 1 = 17 := by decide

/-! ## C29 -/

/-- The product of the primes of block `k` up to level `L`, over the set of their indices. -/
def blockSetProd (C : Ctx) (L k : ℕ) : ℕ := ∏ i ∈ (range (L + 1)).filter (· / C.alpha = k), C.q i

theorem blockProd_eq (ha : 0 < C.alpha) {L k : ℕ} (hk : k < C.beta L) :
    blockProd C L k = blockSetProd C L k := by
  obtain ⟨h0, h1, h2⟩ := blockLen_spec ha hk
  unfold blockProd baseProd blockSetProd
  refine Finset.prod_bij (fun i _ => C.alpha * k + i) (fun i hi => ?_) (fun i _ j _ h => by omega)
    (fun j hj => ?_) (fun i _ => rfl)
  · have := (h2 i).mpr (mem_range.mp hi)
    rw [mem_filter, mem_range]
    refine ⟨by omega, ?_⟩
    rw [Nat.mul_add_div ha, Nat.div_eq_of_lt this.2, add_zero]
  · rw [mem_filter, mem_range] at hj
    refine ⟨j % C.alpha, mem_range.mpr ((h2 _).mp ⟨?_, Nat.mod_lt _ ha⟩), ?_⟩
    · have := Nat.div_add_mod j C.alpha
      rw [hj.2] at this
      omega
    · have := Nat.div_add_mod j C.alpha
      rw [hj.2] at this
      exact this

/-- **C29.** Whatever the scratch and the output buffer held, `Decompose` at level `L` leaves in
the buffer, in NTT form modulo every `q_i` (`i ≤ L`) and every special prime, integer
polynomials `d_k` (`k < beta`) such that `d_k ≡ a` modulo the primes of block `k` up to `L` and
`|d_k| < 2·(product of those primes)`; every prime up to `L` lies in exactly one block. -/
theorem C29_decompose (hC : C.Good) (hF : C.Fits) (ks : KS C) {L : ℕ} (hL : L < C.nQ) (a : RQ C)
    (ad : SwKey C) :
    ∃ d : ℕ → Nega C.N ℤ,
      (∀ k < C.beta L, (∀ i ≤ L, ((ks.Decompose L a ad).2 k).Q.row i =
          C.nttQ.equiv i (Nega.red (C.q i) (d k))) ∧
        (∀ j < C.nP, ((ks.Decompose L a ad).2 k).P.row j =
          C.nttP.equiv j (Nega.red (C.p j) (d k))) ∧
        (∀ i ≤ L, i / C.alpha = k → Nega.red (C.q i) (d k) = a.val C.nttQ i) ∧
        ∀ x, |(d k).coeff x| < 2 * blockSetProd C L k) ∧
      ∀ i ≤ L, ∃! k, k < C.beta L ∧ i / C.alpha = k := by
  obtain ⟨inv, -, h⟩ := decompose_spec hC ks L a ad
  refine ⟨digit C L (a.val C.nttQ), fun k hk => ⟨h.q k hk, h.p k hk, ?_, fun x => ?_⟩, ?_⟩
  · rintro i hi rfl
    exact digit_red hC hL hi _
  · rw [← blockProd_eq hC.alpha_pos' hk]
    exact digit_bdd hC hF hk _ x
  · intro i hi
    exact ⟨i / C.alpha, ⟨block_lt_beta hC.alpha_pos' hi, rfl⟩, fun k hk => hk.2.symm⟩

/-! ## C30 -/

/-- **C30.** For every polynomial `a` (NTT or coefficient form), every switching key that
satisfies its defining equation for message `m`, secret `t` and errors `e`, and every scratch
and output buffer: the two external products with the key and with its common reference part
satisfy `Ext(a,key) + t·Ext(a,crs) = a·m + W` modulo every `q_i`, `i ≤ L`, for one integer
polynomial `W` with `P·|W| ≤ beta·N·D·B + 2P + N·T·2P`. -/
theorem C30_external_product (hC : C.Good) (hF : C.Fits) {key crs : SwKey C} {t m : Nega C.N ℤ}
    {e : ℕ → Nega C.N ℤ} (hk : SwEq key crs t m e) {L : ℕ} (hL : L < C.nQ) {D T B : ℤ}
    (hD : ∀ k < C.beta L, (2 * blockSetProd C L k : ℤ) ≤ D) (ht : t.Bdd T)
    (he : ∀ k < C.beta L, (e k).Bdd B) (a : RQ C) :
    ∃ W : Nega C.N ℤ,
      (∀ x, C.P * |W.coeff x| ≤ C.beta L * (C.N * (D * B)) + (2 * C.P + C.N * (T * (2 * C.P)))) ∧
      ∀ (ks ks' : KS C) (c c' : RQ C), ∀ i ≤ L,
        (⟨(ks.ExternalProduct L a key c).2.row i⟩ : Nega C.N (ZMod (C.q i))) +
          Nega.red (C.q i) t * ⟨(ks'.ExternalProduct L a crs c').2.row i⟩ =
        a.val C.nttQ i * Nega.red (C.q i) m + Nega.red (C.q i) W := by
  obtain ⟨W, hW, h⟩ := ext_pair_bdd hC hF hk hL (digit_isDigits hC hL (a.val C.nttQ)) (D := D)
    (fun k hk' => digit_Bdd hC hF (fun k hk => by
      rw [blockProd_eq hC.alpha_pos' hk]; exact hD k hk) hk' _) ht he
  refine ⟨W, fun x => ?_, fun ks ks' c c' i hi => ?_⟩
  · have := hW x
    rw [Nega.coeff_natCast_mul, abs_mul] at this
    simpa [extNoise] using this
  · obtain ⟨_, _, _, h1⟩ := externalProduct_spec hC ks L a key c
    obtain ⟨_, _, _, h2⟩ := externalProduct_spec hC ks' L a crs c'
    rw [h1, h2]
    dsimp only
    rw [RPoly.write_row_of_le _ _ hi, RPoly.write_row_of_le _ _ hi]
    exact h i hi

/-- **C30 (hoisted).** `ExternalProductHoisted` on the digits produced by `Decompose` at the
same level returns what `ExternalProduct` returns. -/
theorem C30_hoisted_eq (hC : C.Good) (ks ks' ks'' : KS C) (L : ℕ) (a : RQ C) (key ad : SwKey C)
    (c : RQ C) :
    (ks.ExternalProductHoisted L (ks'.Decompose L a ad).2 key c).2 =
      (ks''.ExternalProduct L a key c).2 := by
  obtain ⟨_, -, h⟩ := decompose_spec hC ks' L a ad
  obtain ⟨_, h1⟩ := externalProductHoisted_spec hC ks h key c
  obtain ⟨_, _, _, h2⟩ := externalProduct_spec hC ks'' L a key c
  rw [h1, h2]

/-! ## C21 -/

/-- The ring-level inputs of the non-hoisted multiplication. -/
def mulInOf (L : ℕ) (op0 op1 : Ct C) (rk : String → RelinKey C) (u : SwKey C) : MulIn C where
  L := L
  S0 := op0.parties
  S1 := op1.parties
  c0 := op0.comp
  c1 := op1.comp
  h0 := fun id => digit C L (op0.comp id)
  h1 := fun id => digit C L (op1.comp id)
  d := fun id => (rk id).d.kv
  b := fun id => (rk id).b.kv
  v := fun id => (rk id).v.kv
  u := u.kv

theorem digSrc_none {L : ℕ} {op : Ct C} {id : String} (h : id ∈ op.parties) :
    DigSrc L op none (digit C L (op.comp id)) id := by
  obtain ⟨p, hp⟩ := GoMap.exists_get?_of_mem (mem_parties.mp h).1
  refine ⟨p, hp, ?_⟩
  congr 1
  funext i
  exact Ct.comp_of_get? hp i

/-- Well-formed operands and output of a multiplication at level `L`. -/
structure MulShape (L : ℕ) (op0 op1 ctOut : Ct C) (o : MulOrd) : Prop where
  lt : L < C.nQ
  wf0 : ∃ L0, L ≤ L0 ∧ op0.Wf L0 false
  wf1 : ∃ L1, L ≤ L1 ∧ op1.Wf L1 false
  wfOut : ctOut.Wf L false
  keysOut : ∀ id, id ∈ ctOut.value.keys ↔ id = "0" ∨ id ∈ op0.parties ∨ id ∈ op1.parties
  ord : o.Ok op0 op1 ctOut

theorem MulShape.pre {η : Type _} {L : ℕ} {op0 op1 ctOut : Ct C} {o : MulOrd}
    (H : MulShape L op0 op1 ctOut o) {rlk : RelinKeySet (RelinKey C) η}
    {rk : String → RelinKey C} {u : SwKey C}
    (hrk : ∀ id ∈ op0.parties ∪ op1.parties, rlk.value.get? id = some (rk id)) :
    MulPre op0 op1 ctOut none none rlk rk o (mulInOf L op0 op1 rk u) u where
  wf0 := H.wf0
  wf1 := H.wf1
  wfOut := H.wfOut
  keysOut := H.keysOut
  S0 := rfl
  S1 := rfl
  c0 := rfl
  c1 := rfl
  rk0 := fun id h => hrk id (mem_union_left _ h)
  rk1 := fun id h => hrk id (mem_union_right _ h)
  d := rfl
  b := rfl
  v := rfl
  u := rfl
  h0 := fun _ h => digSrc_none h
  h1 := fun _ h => digSrc_none h
  ord := H.ord

/-- Bounds on secrets and errors of the parties in `S`. -/
structure RelinBdd (C : Ctx) (S : Finset String) (s r : String → Nega C.N ℤ)
    (eb ed ev : String → ℕ → Nega C.N ℤ) (T B : ℤ) : Prop where
  s : ∀ id ∈ S, (s id).Bdd T
  r : ∀ id ∈ S, (r id).Bdd T
  eb : ∀ id ∈ S, ∀ k, (eb id k).Bdd B
  ed : ∀ id ∈ S, ∀ k, (ed id k).Bdd B
  ev : ∀ id ∈ S, ∀ k, (ev id k).Bdd B

/-- **C21 (`MulAndRelin`).** For all ciphertexts of any party sets (overlapping or not) at
levels at least that of the output, all relinearization keys satisfying the equations the key
generator establishes (C34), all bounds, all iteration orders and all scratch contents: the call
succeeds, the result has the union of the parties, and its phase is the product of the phases
plus one integer polynomial `W`, `P·|W| ≤ mulNoise`. -/
theorem C21_MulAndRelin (hC : C.Good) (hF : C.Fits) {η : Type _} {L : ℕ} {op0 op1 ctOut : Ct C}
    {o : MulOrd} (H : MulShape L op0 op1 ctOut o) {crs : CRS C} {a u : SwKey C}
    (hu : crs.get? (-1) = some u) {rlk : RelinKeySet (RelinKey C) η} {rk : String → RelinKey C}
    (hrk : ∀ id ∈ op0.parties ∪ op1.parties, rlk.value.get? id = some (rk id))
    {s r : String → Nega C.N ℤ} {eb ed ev : String → ℕ → Nega C.N ℤ}
    (hk : RelinFor (op0.parties ∪ op1.parties) rk a u s r eb ed ev) {D T B : ℤ}
    (hD : ∀ k < C.beta L, (2 * blockSetProd C L k : ℤ) ≤ D)
    (hb : RelinBdd C (op0.parties ∪ op1.parties) s r eb ed ev T B) (ks : KS C) (hok : ks.Ok) :
    ∃ ks' ct' W, ks.MulAndRelin crs op0 op1 rlk ctOut o = .ok (ks', ct') ∧ ks'.Ok ∧
      ct'.Wf L false ∧ ct'.parties = op0.parties ∪ op1.parties ∧
      (∀ x, C.P * |Nega.coeff W x| ≤
        mulNoise C L op0.parties.card op1.parties.card D D D T B) ∧
      ∀ i ≤ L, ct'.phase s i = op0.phase s i * op1.phase s i + Nega.red (C.q i) W := by
  have hpre := H.pre (u := u) hrk
  obtain ⟨ks', ct', h1, h2, h3⟩ := mulCore_spec hC hpre (lastPlain_spec hC hu L) ks hok
  have hS : "0" ∉ op0.parties ∪ op1.parties := by
    rw [mem_union, not_or]
    exact ⟨zero_notMem_parties _, zero_notMem_parties _⟩
  have hD' : digitBound C L D := fun k hk' => by
    rw [blockProd_eq hC.alpha_pos' hk']; exact hD k hk'
  obtain ⟨W, hW, hph⟩ := mul_phase hC hF (mulInOf L op0 op1 rk u) H.lt (zero_notMem_parties _)
    (zero_notMem_parties _) hk rfl rfl rfl rfl
    (fun id _ => digit_isDigits hC H.lt _) (fun id _ => digit_isDigits hC H.lt _)
    (fun id _ k hk' => digit_Bdd hC hF hD' hk' _) (fun id _ k hk' => digit_Bdd hC hF hD' hk' _)
    hD' hb.s hb.r (fun id h k _ => hb.eb id h k) (fun id h k _ => hb.ed id h k)
    (fun id h k _ => hb.ev id h k)
  obtain ⟨L0, _, w0⟩ := H.wf0
  obtain ⟨L1, _, w1⟩ := H.wf1
  refine ⟨ks', ct', W, h1, h2, h3.toWf (mem_insert_self _ _), h3.parties hS, fun x => ?_,
    fun i hi => ?_⟩
  · have := hW x
    rw [Nega.coeff_natCast_mul, abs_mul, Nat.abs_cast] at this
    exact this
  · rw [h3.phase hS s hi, phase_eq_ringPhase w0.zero_mem, phase_eq_ringPhase w1.zero_mem]
    exact hph i hi

/-! ## C23 -/

/-- A hoisted form of `op`: for every party the digits at level `Lh` of its component. -/
def IsHoisted (Lh : ℕ) (op : Ct C) (Hc : HoistedCt C) : Prop :=
  ∀ id ∈ op.parties, ∃ sk, Hc.get? id = some sk ∧ Holds Lh sk (digit C Lh (op.comp id))

/-- An absent hoisted form, or one made at the level of the output. -/
def HoistOpt (L : ℕ) (op : Ct C) (h : Option (HoistedCt C)) : Prop :=
  ∀ Hc, h = some Hc → IsHoisted L op Hc

theorem HoistOpt.digSrc {L : ℕ} {op : Ct C} {h : Option (HoistedCt C)} (H : HoistOpt L op h)
    {id : String} (hid : id ∈ op.parties) : DigSrc L op h (digit C L (op.comp id)) id := by
  cases h with
  | none => exact digSrc_none hid
  | some Hc => exact H Hc rfl id hid

/-- **C23 (multiplication).** For each operand independently hoisted or not (`nil`), the hoisted
multiplication returns exactly what `MulAndRelin` returns, for all iteration orders and scratch
contents of both calls. -/
theorem C23_mul_hoisted (hC : C.Good) {η : Type _} {L : ℕ} {op0 op1 ctOut ctOut' : Ct C}
    {o o' : MulOrd} (H : MulShape L op0 op1 ctOut o) (H' : MulShape L op0 op1 ctOut' o')
    {crs : CRS C} {u : SwKey C} (hu : crs.get? (-1) = some u)
    {rlk : RelinKeySet (RelinKey C) η} {rk : String → RelinKey C}
    (hrk : ∀ id ∈ op0.parties ∪ op1.parties, rlk.value.get? id = some (rk id))
    {h0 h1 : Option (HoistedCt C)} (hh0 : HoistOpt L op0 h0) (hh1 : HoistOpt L op1 h1)
    (ks ks' : KS C) (hok : ks.Ok) (hok' : ks'.Ok) :
    ∃ k1 k2 r1 r2, ks.MulAndRelin crs op0 op1 rlk ctOut o = .ok (k1, r1) ∧
      ks'.MulAndRelinHoisted crs op0 op1 h0 h1 rlk ctOut' o' = .ok (k2, r2) ∧ r1.Same r2 := by
  have hpre := H.pre (u := u) hrk
  have hpre' : MulPre op0 op1 ctOut' h0 h1 rlk rk o' (mulInOf L op0 op1 rk u) u :=
    { H'.pre (u := u) hrk with
      h0 := fun id h => hh0.digSrc h
      h1 := fun id h => hh1.digSrc h }
  obtain ⟨k1, r1, e1, -, c1⟩ := mulCore_spec hC hpre (lastPlain_spec hC hu L) ks hok
  obtain ⟨k2, r2, e2, -, c2⟩ := mulCore_spec hC hpre' (lastHoisted_spec hC hu L) ks' hok'
  exact ⟨k1, k2, r1, r2, e1, e2, c1.same c2⟩

/-- Well-formed input and output of a rotation to level `L`. -/
structure RotShape (L : ℕ) (ctIn ctOut : Ct C) (o : RotOrd) : Prop where
  lt : L < C.nQ
  wfIn : ∃ L0, L ≤ L0 ∧ ctIn.Wf L0 false
  wfOut : ctOut.Wf L false
  keysOut : ∀ id, id ∈ ctOut.value.keys ↔ id ∈ ctIn.value.keys
  ord : o.Ok ctIn

theorem rotate_spec {k : ℕ} (hN : C.N = 2 ^ k) (hC : C.Good) {L : ℕ} {ctIn ctOut : Ct C}
    {o : RotOrd} (H : RotShape L ctIn ctOut o) {crs : CRS C} {rot : ℤ}
    {rkSet : RotationKeySet (RotKey C)} {rk : String → RotKey C} {a : SwKey C}
    (hrk : ∀ id ∈ ctIn.parties, rkSet.get id (normRot (C.N / 2) rot).toNat = .ok (rk id))
    (ha : crs.get? (normRot (C.N / 2) rot) = some a) (ks : KS C) (hok : ks.Ok) :
    ∃ ks' ct', ks.Rotate crs ctIn rot rkSet ctOut o = .ok (ks', ct') ∧ ks'.Ok ∧
      CtIs ct' L (insert "0" ctIn.parties) fun id i =>
        (rotOut C (galCol C.N (normRot (C.N / 2) rot).toNat) L ctIn.parties ctIn.comp
          (fun id => digit C L (ctIn.comp id)) (fun id => (rk id).value.kv) a.kv id i).coeff := by
  obtain ⟨L0, hL0, w0⟩ := H.wfIn
  exact rotCore_spec hN H.lt hL0 w0 H.wfOut H.keysOut hrk ha
    (extp := fun level ks id key c => do
      let a ← ctIn.value.deref id
      return ks.ExternalProduct level a key c)
    (extp_plain hC fun id hid => digSrc_none hid) H.ord ks hok

theorem rotateHoisted_spec {k : ℕ} (hN : C.N = 2 ^ k) (hC : C.Good) {L : ℕ} {ctIn ctOut : Ct C}
    {o : RotOrd} (H : RotShape L ctIn ctOut o) {crs : CRS C} {rot : ℤ}
    {rkSet : RotationKeySet (RotKey C)} {rk : String → RotKey C} {a : SwKey C}
    (hrk : ∀ id ∈ ctIn.parties, rkSet.get id (normRot (C.N / 2) rot).toNat = .ok (rk id))
    (ha : crs.get? (normRot (C.N / 2) rot) = some a) {Hc : HoistedCt C}
    (hH : IsHoisted L ctIn Hc) (ks : KS C) (hok : ks.Ok) :
    ∃ ks' ct', ks.RotateHoisted crs ctIn rot Hc rkSet ctOut o = .ok (ks', ct') ∧ ks'.Ok ∧
      CtIs ct' L (insert "0" ctIn.parties) fun id i =>
        (rotOut C (galCol C.N (normRot (C.N / 2) rot).toNat) L ctIn.parties ctIn.comp
          (fun id => digit C L (ctIn.comp id)) (fun id => (rk id).value.kv) a.kv id i).coeff := by
  obtain ⟨L0, hL0, w0⟩ := H.wfIn
  exact rotCore_spec hN H.lt hL0 w0 H.wfOut H.keysOut hrk ha
    (extp := fun level ks id key c => do
      let h ← Hc.deref id
      return ks.ExternalProductHoisted level h key c)
    (extp_hoisted (ctIn := ctIn) hC fun id hid => hH id hid) H.ord ks hok

/-- **C23 (rotation).** `RotateHoisted` with the hoisted form of the input returns exactly what
`Rotate` returns. -/
theorem C23_rotate_hoisted {k : ℕ} (hN : C.N = 2 ^ k) (hC : C.Good) {L : ℕ}
    {ctIn ctOut ctOut' : Ct C} {o o' : RotOrd} (H : RotShape L ctIn ctOut o)
    (H' : RotShape L ctIn ctOut' o') {crs : CRS C} {rot : ℤ}
    {rkSet : RotationKeySet (RotKey C)} {rk : String → RotKey C} {a : SwKey C}
    (hrk : ∀ id ∈ ctIn.parties, rkSet.get id (normRot (C.N / 2) rot).toNat = .ok (rk id))
    (ha : crs.get? (normRot (C.N / 2) rot) = some a) {Hc : HoistedCt C}
    (hH : IsHoisted L ctIn Hc) (ks ks' : KS C) (hok : ks.Ok) (hok' : ks'.Ok) :
    ∃ k1 k2 r1 r2, ks.Rotate crs ctIn rot rkSet ctOut o = .ok (k1, r1) ∧
      ks'.RotateHoisted crs ctIn rot Hc rkSet ctOut' o' = .ok (k2, r2) ∧ r1.Same r2 := by
  obtain ⟨k1, r1, e1, -, c1⟩ := rotate_spec hN hC H hrk ha ks hok
  obtain ⟨k2, r2, e2, -, c2⟩ := rotateHoisted_spec hN hC H' hrk ha hH ks' hok'
  exact ⟨k1, k2, r1, r2, e1, e2, c1.same c2⟩

/-! ## C24 -/

/-- **C24 (`Rotate`).** For every index (negative ones are first normalised), every ciphertext
and all rotation keys satisfying the equations of the key generator (C34): the phase of the
result is the automorphism `X ↦ X^(5^k)` of the phase of the input plus `W`,
`P·|W| ≤ n·(beta·N·D·B + 2P + 2·N·T·P)` for `n` parties. -/
theorem C24_Rotate {k : ℕ} (hN : C.N = 2 ^ k) (hC : C.Good) (hF : C.Fits) {L : ℕ}
    {ctIn ctOut : Ct C} {o : RotOrd} (H : RotShape L ctIn ctOut o) {crs : CRS C} {rot : ℤ}
    {rkSet : RotationKeySet (RotKey C)} {rk : String → RotKey C} {a : SwKey C}
    (hrk : ∀ id ∈ ctIn.parties, rkSet.get id (normRot (C.N / 2) rot).toNat = .ok (rk id))
    (ha : crs.get? (normRot (C.N / 2) rot) = some a) {s : String → Nega C.N ℤ}
    {e : String → ℕ → Nega C.N ℤ}
    (hk : ∀ id ∈ ctIn.parties, SwEq (rk id).value a (Nega.auto (galInv C.N
      (galCol C.N (normRot (C.N / 2) rot).toNat)) (s id)) (s id) (e id)) {D T B : ℤ}
    (hD : ∀ k < C.beta L, (2 * blockSetProd C L k : ℤ) ≤ D)
    (hs : ∀ id ∈ ctIn.parties, (s id).Bdd T) (he : ∀ id ∈ ctIn.parties, ∀ k, (e id k).Bdd B)
    (ks : KS C) (hok : ks.Ok) :
    ∃ ks' ct' W, ks.Rotate crs ctIn rot rkSet ctOut o = .ok (ks', ct') ∧ ks'.Ok ∧
      ct'.Wf L false ∧ ct'.parties = ctIn.parties ∧
      (∀ x, C.P * |Nega.coeff W x| ≤ ctIn.parties.card * extNoise C L D T B) ∧
      ∀ i ≤ L, ct'.phase s i = Nega.auto (galCol C.N (normRot (C.N / 2) rot).toNat)
        (ctIn.phase s i) + Nega.red (C.q i) W := by
  obtain ⟨ks', ct', h1, h2, h3⟩ := rotate_spec hN hC H hrk ha ks hok
  obtain ⟨L0, _, w0⟩ := H.wfIn
  have hD' : digitBound C L D := fun k hk' => by
    rw [blockProd_eq hC.alpha_pos' hk']; exact hD k hk'
  obtain ⟨W, hW, hph⟩ := rot_phase hC hF hN (galCol_odd _ _) H.lt (zero_notMem_parties ctIn)
    (c := ctIn.comp) hk (fun id _ => digit_isDigits hC H.lt _)
    (fun id _ k hk' => digit_Bdd hC hF hD' hk' _) hs (fun id h k _ => he id h k)
  refine ⟨ks', ct', W, h1, h2, h3.toWf (mem_insert_self _ _),
    h3.parties (zero_notMem_parties _), fun x => ?_, fun i hi => ?_⟩
  · have := hW x
    rw [Nega.coeff_natCast_mul, abs_mul] at this
    simpa using this
  · rw [h3.phase (zero_notMem_parties _) s hi, phase_eq_ringPhase w0.zero_mem]
    exact hph i hi

/-! ## C27 -/

/-- **C27 (`Conjugate`).** At the maximum level the phase of the result is the automorphism
`X ↦ X^(2N-1)` of the phase of the input plus bounded noise. -/
theorem C27_Conjugate {k : ℕ} (hN : C.N = 2 ^ k) (hC : C.Good) (hF : C.Fits)
    {ctIn ctOut : Ct C} {o : RotOrd} (H : RotShape C.lq ctIn ctOut o) {crs : CRS C}
    {ckSet : KeySet (ConjKey C)} {ck : String → ConjKey C} {u : SwKey C}
    (hck : ∀ id ∈ ctIn.parties, ckSet.get id = .ok (ck id)) (hu : crs.get? (-2) = some u)
    {s : String → Nega C.N ℤ} {e : String → ℕ → Nega C.N ℤ}
    (hk : ∀ id ∈ ctIn.parties, SwEq (ck id).value u (s id) (Nega.auto (2 * C.N - 1) (s id)) (e id))
    {D T B : ℤ} (hD : ∀ k < C.beta C.lq, (2 * blockSetProd C C.lq k : ℤ) ≤ D)
    (hs : ∀ id ∈ ctIn.parties, (s id).Bdd T) (he : ∀ id ∈ ctIn.parties, ∀ k, (e id k).Bdd B)
    (ks : KS C) (hok : ks.Ok) :
    ∃ ks' ct' W, ks.Conjugate crs ctIn ckSet ctOut o = .ok (ks', ct') ∧ ks'.Ok ∧
      ct'.Wf C.lq false ∧ ct'.parties = ctIn.parties ∧
      (∀ x, C.P * |Nega.coeff W x| ≤ ctIn.parties.card * extNoise C C.lq D T B) ∧
      ∀ i ≤ C.lq, ct'.phase s i = Nega.auto (2 * C.N - 1) (ctIn.phase s i) +
        Nega.red (C.q i) W := by
  obtain ⟨L0, hL0, w0⟩ := H.wfIn
  obtain ⟨ks', ct', h1, h2, h3⟩ := conjugate_spec hN hC hL0 w0 H.wfOut H.keysOut hck hu H.ord ks hok
  have hD' : digitBound C C.lq D := fun k hk' => by
    rw [blockProd_eq hC.alpha_pos' hk']; exact hD k hk'
  obtain ⟨W, hW, hph⟩ := conj_phase hC hF H.lt (c := ctIn.comp) (zero_notMem_parties ctIn) hk hD'
    hs (fun id h k _ => he id h k)
  refine ⟨ks', ct', W, h1, h2, h3.toWf (mem_insert_self _ _),
    h3.parties (zero_notMem_parties _), fun x => ?_, fun i hi => ?_⟩
  · have := hW x
    rw [Nega.coeff_natCast_mul, abs_mul] at this
    simpa using this
  · rw [h3.phase (zero_notMem_parties _) s hi, phase_eq_ringPhase w0.zero_mem]
    exact hph i hi

/-- **C27 (below the maximum level).** `Conjugate` of any well-formed ciphertext below the
maximum level panics: lattigo's `Permute` indexes the rows of all moduli. -/
theorem C27_below_max_panics {L : ℕ} (hL : L + 1 < C.nQ) {ctIn ctOut : Ct C} {o : RotOrd}
    (w0 : ctIn.Wf L false) (wOut : ctOut.Wf L false)
    (hkeys : ∀ id, id ∈ ctOut.value.keys ↔ id ∈ ctIn.value.keys) (ho : o.Ok ctIn) (crs : CRS C)
    (ckSet : KeySet (ConjKey C)) (ks : KS C) :
    ks.Conjugate crs ctIn ckSet ctOut o = .error .indexRange := by
  obtain ⟨r0, hr0, _, _⟩ := ctIn.IDSet_spec ho.i
  have hne : o.p ≠ [] := by
    intro h
    have := ho.p.mem.mpr w0.zero_mem
    rw [h] at this
    simp at this
  obtain ⟨id, l, hol⟩ := List.exists_cons_of_ne_nil hne
  have hid : id ∈ ctIn.value.keys := ho.p.mem.mp (by rw [hol]; exact List.mem_cons_self)
  obtain ⟨p, hp⟩ := GoMap.exists_get?_of_mem hid
  obtain ⟨p', hp'⟩ := GoMap.exists_get?_of_mem ((hkeys id).mpr hid)
  have hpl := w0.len _ _ hp
  unfold KS.Conjugate
  rw [wOut.level, hr0, w0.level]
  simp only [Go.ok_bind]
  rw [if_neg (lt_irrefl _), hol]
  unfold forEach conjPermStep permuteFull
  simp only [GoMap.deref_of_get? hp, GoMap.deref_of_get? hp', Go.ok_bind]
  rw [if_pos (Or.inl (by omega))]
  rfl

/-! ## C28 -/

/-- Partial correctness: `P` holds of the result if the computation does not panic. -/
def Go.Post {α : Type _} (x : Go α) (P : α → Prop) : Prop := ∀ a, x = .ok a → P a

theorem Go.Post.bind {α β : Type _} {x : Go α} {f : α → Go β} {Q : α → Prop} {P : β → Prop}
    (hx : Go.Post x Q) (hf : ∀ a, Q a → Go.Post (f a) P) : Go.Post (x >>= f) P := by
  intro b hb
  cases x with
  | error e => cases hb
  | ok a => exact hf a (hx a rfl) b hb

theorem Go.Post.bind' {α β : Type _} {x : Go α} {f : α → Go β} {P : β → Prop}
    (hf : ∀ a, Go.Post (f a) P) : Go.Post (x >>= f) P :=
  Go.Post.bind (Q := fun _ => True) (fun _ _ => trivial) fun a _ => hf a

theorem Go.Post.pure {α : Type _} {P : α → Prop} {a : α} (h : P a) :
    Go.Post (Pure.pure a) P := by
  intro b hb; cases hb; exact h

theorem Go.Post.error {α : Type _} {P : α → Prop} {e : Panic} :
    Go.Post (Except.error e : Go α) P := by
  intro b hb; cases hb

theorem Go.Post.forEach {α σ : Type _} {P : σ → Prop} {body : α → σ → Go σ}
    (hb : ∀ a s, P s → Go.Post (body a s) P) (o : List α) (s : σ) (hs : P s) :
    Go.Post (forEach o body s) P := by
  induction o generalizing s with
  | nil => intro b hb; cases hb; exact hs
  | cons a o ih => exact Go.Post.bind (hb a s hs) fun s' hs' => ih s' hs'

theorem KS.Ok.toCoeff {ks : KS C} (h : ks.Ok) (L : ℕ) (a : RQ C) : (ks.toCoeff L a).1.Ok := by
  unfold KS.toCoeff
  split
  · exact ⟨h.ntt, h.len⟩
  · exact h

theorem KS.Ok.decompose {ks : KS C} (h : ks.Ok) (L : ℕ) (a : RQ C) (ad : SwKey C) :
    (ks.Decompose L a ad).1.Ok := h.toCoeff L a

theorem KS.Ok.ext {ks : KS C} (h : ks.Ok) (L : ℕ) (a : RQ C) (bg : SwKey C) (c : RQ C) :
    (ks.ExternalProduct L a bg c).1.Ok :=
  ⟨(h.toCoeff L a).ntt, (h.toCoeff L a).len⟩

theorem KS.Ok.extH {ks : KS C} (h : ks.Ok) (L : ℕ) (a : SwKey C) (bg : SwKey C) (c : RQ C) :
    (ks.ExternalProductHoisted L a bg c).1.Ok := ⟨h.ntt, h.len⟩

/-- The external product keeps the flag and length of the buffer it writes. -/
theorem KS.ext_flags (ks : KS C) (L : ℕ) (a : RQ C) (bg : SwKey C) (c : RQ C) :
    (ks.ExternalProduct L a bg c).2.isNTT = c.isNTT ∧
      (ks.ExternalProduct L a bg c).2.len = c.len := ⟨rfl, rfl⟩

theorem KS.extH_flags (ks : KS C) (L : ℕ) (a : SwKey C) (bg : SwKey C) (c : RQ C) :
    (ks.ExternalProductHoisted L a bg c).2.isNTT = c.isNTT ∧
      (ks.ExternalProductHoisted L a bg c).2.len = c.len := ⟨rfl, rfl⟩

theorem getDigits_ok {ks : KS C} (h : ks.Ok) (L : ℕ) (op : Ct C) (ho : Option (HoistedCt C))
    (id : String) : Go.Post (ks.getDigits L op ho id) fun r => r.1.Ok := by
  unfold KS.getDigits
  cases ho with
  | none =>
    refine Go.Post.bind' fun a => Go.Post.pure ?_
    exact ⟨(h.decompose L a ks.swk3).ntt, (h.decompose L a ks.swk3).len⟩
  | some H => exact Go.Post.bind' fun a => Go.Post.pure h

theorem extComp_ok {ks : KS C} (h : ks.Ok) (L : ℕ) (op : Ct C) (ho : Option (HoistedCt C))
    (id : String) (key : SwKey C) : Go.Post (ks.extComp L op ho id key) fun r => r.Ok := by
  unfold KS.extComp
  cases ho with
  | none => exact Go.Post.bind' fun a => Go.Post.pure ⟨h.ntt, h.len⟩
  | some H => exact Go.Post.bind' fun a => Go.Post.pure ⟨h.ntt, h.len⟩

theorem lastPlain_ok (crs : CRS C) (L : ℕ) (v : SwKey C) (id : String) {ks : KS C} (h : ks.Ok)
    (ct : Ct C) : Go.Post (KS.lastPlain crs L v id (ks, ct)) fun r => r.1.Ok := by
  unfold KS.lastPlain
  refine Go.Post.bind' fun o0 => Go.Post.bind' fun u => Go.Post.bind' fun o => Go.Post.pure ?_
  have h1 := h.ext L ks.pq0 v ks.pq1
  have h2 : ({ (ks.ExternalProduct L ks.pq0 v ks.pq1).1 with
    pq1 := (ks.ExternalProduct L ks.pq0 v ks.pq1).2 } : KS C).Ok := ⟨h1.ntt, h1.len⟩
  have h3 := h2.ext L (ks.ExternalProduct L ks.pq0 v ks.pq1).1.pq0 u
    (ks.ExternalProduct L ks.pq0 v ks.pq1).1.pq2
  exact ⟨h3.ntt, h3.len⟩

theorem lastHoisted_ok (crs : CRS C) (L : ℕ) (v : SwKey C) (id : String) {ks : KS C} (h : ks.Ok)
    (ct : Ct C) : Go.Post (KS.lastHoisted crs L v id (ks, ct)) fun r => r.1.Ok := by
  unfold KS.lastHoisted
  refine Go.Post.bind' fun o0 => Go.Post.bind' fun u => Go.Post.bind' fun o => Go.Post.pure ?_
  have h1 := h.decompose L ks.pq0 ks.swk3
  exact ⟨h1.ntt, h1.len⟩

theorem mulCore_ok {η : Type _} {last : ℕ → SwKey C → String → KS C × Ct C → Go (KS C × Ct C)}
    (hlast : ∀ L v id (ks : KS C) ct, ks.Ok → Go.Post (last L v id (ks, ct)) fun r => r.1.Ok)
    {ks : KS C} (h : ks.Ok) (op0 op1 : Ct C) (h0 h1 : Option (HoistedCt C))
    (rlk : RelinKeySet (RelinKey C) η) (ctOut : Ct C) (o : MulOrd) :
    Go.Post (ks.mulCore last op0 op1 h0 h1 rlk ctOut o) fun r => r.1.Ok := by
  unfold KS.mulCore
  refine Go.Post.bind' fun level => Go.Post.bind' fun l0 => ?_
  split
  · exact Go.Post.error
  · refine Go.Post.bind' fun idset0 => Go.Post.bind' fun _ => ?_
    refine Go.Post.bind (Q := fun ks => ks.Ok) (Go.Post.forEach (fun id s hs => ?_) _ _
      ⟨h.ntt, h.len⟩) fun ks1 hk1 => ?_
    · exact Go.Post.bind (getDigits_ok hs level op0 h0 id) fun r hr =>
        Go.Post.bind' fun k => Go.Post.pure ⟨hr.ntt, hr.len⟩
    refine Go.Post.bind (Q := fun ks => ks.Ok) (Go.Post.forEach (fun id s hs => ?_) _ _
      ⟨hk1.ntt, hk1.len⟩) fun ks2 hk2 => ?_
    · exact Go.Post.bind (getDigits_ok hs level op1 h1 id) fun r hr =>
        Go.Post.bind' fun k => Go.Post.pure ⟨hr.ntt, hr.len⟩
    refine Go.Post.bind' fun a0 => Go.Post.bind' fun a1 => Go.Post.bind' fun o0 => ?_
    refine Go.Post.bind (Q := fun r : KS C × Ct C => r.1.Ok) (Go.Post.forEach
      (fun id s hs => ?_) _ _ ⟨hk2.ntt, hk2.len⟩) fun r3 hk3 => ?_
    · exact Go.Post.bind' fun a => Go.Post.bind' fun o => Go.Post.pure ⟨hs.ntt, hs.len⟩
    refine Go.Post.bind (Q := fun r : KS C × Ct C => r.1.Ok) (Go.Post.forEach
      (fun id s hs => ?_) _ _ hk3) fun r4 hk4 => ?_
    · exact Go.Post.bind' fun a => Go.Post.bind' fun o => Go.Post.pure ⟨hs.ntt, hs.len⟩
    refine Go.Post.bind' fun out => ?_
    refine Go.Post.bind (Q := fun r : KS C × Ct C => r.1.Ok) (Go.Post.forEach
      (fun id s hs => ?_) _ _ hk4) fun r5 hk5 => ?_
    · exact Go.Post.bind (extComp_ok hs level op1 h1 id _) fun r hr =>
        Go.Post.bind' fun k => Go.Post.pure hr
    refine Go.Post.forEach (P := fun r : KS C × Ct C => r.1.Ok) (fun id s hs => ?_) _ _ hk5
    exact Go.Post.bind' fun k => Go.Post.bind (extComp_ok hs level op0 h0 id _) fun r hr =>
      hlast level k.v id r _ hr

theorem rotCore_ok {extp : ℕ → KS C → String → SwKey C → RQ C → Go (KS C × RQ C)}
    (hext : ∀ L (ks : KS C) id key c, ks.Ok → Go.Post (extp L ks id key c) fun r =>
      r.1.Ok ∧ r.2.isNTT = c.isNTT ∧ r.2.len = c.len)
    (crs : CRS C) {ks : KS C} (h : ks.Ok) (ctIn : Ct C) (rot : ℤ)
    (rkSet : RotationKeySet (RotKey C)) (ctOut : Ct C) (o : RotOrd) :
    Go.Post (KS.rotCore extp crs ks ctIn rot rkSet ctOut o) fun r => r.1.Ok := by
  unfold KS.rotCore
  refine Go.Post.bind' fun level => Go.Post.bind' fun _ => Go.Post.bind' fun l0 => ?_
  split
  · exact Go.Post.error
  · refine Go.Post.bind' fun i0 => Go.Post.bind' fun o0 => ?_
    refine Go.Post.bind (Q := fun r : KS C × Ct C => r.1.Ok) (Go.Post.forEach
      (fun id s hs => ?_) _ _ h) fun r3 hk3 => ?_
    · refine Go.Post.bind' fun rk => Go.Post.bind (hext level s.1 id rk.value s.1.pq0 hs)
        fun r hr => ?_
      refine Go.Post.bind' fun o0 => Go.Post.bind' fun a => Go.Post.bind' fun o => ?_
      refine Go.Post.bind (hext level _ id a o ⟨hr.2.1.trans hs.ntt, hr.2.2.trans hs.len⟩)
        fun r' hr' => Go.Post.pure hr'.1
    refine Go.Post.forEach (P := fun r : KS C × Ct C => r.1.Ok) (fun id s hs => ?_) _ _ hk3
    exact Go.Post.bind' fun c => Go.Post.pure ⟨hs.ntt, hs.len⟩

theorem conjugate_ok (crs : CRS C) {ks : KS C} (h : ks.Ok) (ctIn : Ct C)
    (ckSet : KeySet (ConjKey C)) (ctOut : Ct C) (o : RotOrd) :
    Go.Post (ks.Conjugate crs ctIn ckSet ctOut o) fun r => r.1.Ok := by
  unfold KS.Conjugate
  refine Go.Post.bind' fun level => Go.Post.bind' fun _ => Go.Post.bind' fun l0 => ?_
  split
  · exact Go.Post.error
  · refine Go.Post.bind' fun out => ?_
    refine Go.Post.bind (Q := fun r : KS C × Ct C => r.1.Ok) (Go.Post.forEach
      (fun id s hs => ?_) _ _ h) fun r3 hk3 => ?_
    · exact Go.Post.bind' fun ck => Go.Post.bind' fun a => Go.Post.bind' fun o0 =>
        Go.Post.pure ⟨hs.ntt, hs.len⟩
    refine Go.Post.forEach (P := fun r : KS C × Ct C => r.1.Ok) (fun id s hs => ?_) _ _ hk3
    exact Go.Post.bind' fun a => Go.Post.bind' fun u => Go.Post.pure ⟨hs.ntt, hs.len⟩

/-- The states a key switcher can be in: after `NewKeySwitcher` and any sequence of completed
calls with any arguments, well-formed or not. -/
inductive KS.Reach : KS C → Prop
  | new : Reach KS.new
  | decompose {ks} (h : Reach ks) (L : ℕ) (a : RQ C) (ad : SwKey C) :
      Reach (ks.Decompose L a ad).1
  | ext {ks} (h : Reach ks) (L : ℕ) (a : RQ C) (bg : SwKey C) (c : RQ C) :
      Reach (ks.ExternalProduct L a bg c).1
  | extHoisted {ks} (h : Reach ks) (L : ℕ) (a bg : SwKey C) (c : RQ C) :
      Reach (ks.ExternalProductHoisted L a bg c).1
  | mul {η : Type} {ks ks'} (h : Reach ks) {crs op0 op1} {rlk : RelinKeySet (RelinKey C) η}
      {out o ct} (e : ks.MulAndRelin crs op0 op1 rlk out o = .ok (ks', ct)) : Reach ks'
  | mulHoisted {η : Type} {ks ks'} (h : Reach ks) {crs op0 op1 h0 h1}
      {rlk : RelinKeySet (RelinKey C) η} {out o ct}
      (e : ks.MulAndRelinHoisted crs op0 op1 h0 h1 rlk out o = .ok (ks', ct)) : Reach ks'
  | rotate {ks ks'} (h : Reach ks) {crs ctIn rot rkSet out o ct}
      (e : ks.Rotate crs ctIn rot rkSet out o = .ok (ks', ct)) : Reach ks'
  | rotateHoisted {ks ks'} (h : Reach ks) {crs ctIn rot H rkSet out o ct}
      (e : ks.RotateHoisted crs ctIn rot H rkSet out o = .ok (ks', ct)) : Reach ks'
  | conjugate {ks ks'} (h : Reach ks) {crs ctIn ckSet out o ct}
      (e : ks.Conjugate crs ctIn ckSet out o = .ok (ks', ct)) : Reach ks'

/-- **C28 (invariant).** Every reachable state of a key switcher has its first pool polynomial
in coefficient form with all rows: the only facts about scratch memory the results use. -/
theorem C28_reach_ok {ks : KS C} (h : ks.Reach) : ks.Ok := by
  induction h with
  | new => exact ⟨rfl, rfl⟩
  | decompose _ L a ad ih => exact ih.decompose L a ad
  | ext _ L a bg c ih => exact ih.ext L a bg c
  | extHoisted _ L a bg c ih => exact ih.extH L a bg c
  | mul _ e ih =>
    exact mulCore_ok (fun L v id ks ct h => lastPlain_ok _ L v id h ct) ih _ _ _ _ _ _ _ _ e
  | mulHoisted _ e ih =>
    exact mulCore_ok (fun L v id ks ct h => lastHoisted_ok _ L v id h ct) ih _ _ _ _ _ _ _ _ e
  | rotate _ e ih =>
    exact rotCore_ok (fun L ks id key c h => Go.Post.bind' fun a => Go.Post.pure
      ⟨h.ext L a key c, rfl, rfl⟩) _ ih _ _ _ _ _ _ e
  | rotateHoisted _ e ih =>
    exact rotCore_ok (fun L ks id key c h => Go.Post.bind' fun a => Go.Post.pure
      ⟨h.extH L a key c, rfl, rfl⟩) _ ih _ _ _ _ _ _ e
  | conjugate _ e ih => exact conjugate_ok _ ih _ _ _ _ _ e

/-- **C28 (external products).** The result does not depend on the scratch memory, and rows
above the level and the flag of the output buffer are untouched. -/
theorem C28_external_product (hC : C.Good) (ks ks' : KS C) (L : ℕ) (a : RQ C) (bg : SwKey C)
    (c : RQ C) : (ks.ExternalProduct L a bg c).2 = (ks'.ExternalProduct L a bg c).2 := by
  obtain ⟨_, _, _, h1⟩ := externalProduct_spec hC ks L a bg c
  obtain ⟨_, _, _, h2⟩ := externalProduct_spec hC ks' L a bg c
  rw [h1, h2]

/-- **C28 (`Decompose`).** The digits written do not depend on scratch memory or on the former
content of the buffer. -/
theorem C28_decompose (hC : C.Good) (ks ks' : KS C) (L : ℕ) (a : RQ C) (ad ad' : SwKey C) :
    ∀ k < C.beta L, (∀ i ≤ L, ((ks.Decompose L a ad).2 k).Q.row i =
        ((ks'.Decompose L a ad').2 k).Q.row i) ∧
      ∀ j < C.nP, ((ks.Decompose L a ad).2 k).P.row j = ((ks'.Decompose L a ad').2 k).P.row j := by
  obtain ⟨_, -, h1⟩ := decompose_spec hC ks L a ad
  obtain ⟨_, -, h2⟩ := decompose_spec hC ks' L a ad'
  exact fun k hk => ⟨fun i hi => by rw [h1.q k hk i hi, h2.q k hk i hi],
    fun j hj => by rw [h1.p k hk j hj, h2.p k hk j hj]⟩

/-- **C28 (multiplication).** After any two histories, with any two output buffers of the same
shape and any iteration orders, `MulAndRelin` of the same operands returns the same value. -/
theorem C28_mul (hC : C.Good) {η : Type _} {L : ℕ} {op0 op1 ctOut ctOut' : Ct C}
    {o o' : MulOrd} (H : MulShape L op0 op1 ctOut o) (H' : MulShape L op0 op1 ctOut' o')
    {crs : CRS C} {u : SwKey C} (hu : crs.get? (-1) = some u)
    {rlk : RelinKeySet (RelinKey C) η} {rk : String → RelinKey C}
    (hrk : ∀ id ∈ op0.parties ∪ op1.parties, rlk.value.get? id = some (rk id))
    {ks ks' : KS C} (hr : ks.Reach) (hr' : ks'.Reach) :
    ∃ k1 k2 r1 r2, ks.MulAndRelin crs op0 op1 rlk ctOut o = .ok (k1, r1) ∧
      ks'.MulAndRelin crs op0 op1 rlk ctOut' o' = .ok (k2, r2) ∧ r1.Same r2 := by
  obtain ⟨k1, r1, e1, -, c1⟩ := mulCore_spec hC (H.pre (u := u) hrk) (lastPlain_spec hC hu L) ks
    (C28_reach_ok hr)
  obtain ⟨k2, r2, e2, -, c2⟩ := mulCore_spec hC (H'.pre (u := u) hrk) (lastPlain_spec hC hu L) ks'
    (C28_reach_ok hr')
  exact ⟨k1, k2, r1, r2, e1, e2, c1.same c2⟩

/-- **C28 (rotation).** -/
theorem C28_rotate {k : ℕ} (hN : C.N = 2 ^ k) (hC : C.Good) {L : ℕ}
    {ctIn ctOut ctOut' : Ct C} {o o' : RotOrd} (H : RotShape L ctIn ctOut o)
    (H' : RotShape L ctIn ctOut' o') {crs : CRS C} {rot : ℤ}
    {rkSet : RotationKeySet (RotKey C)} {rk : String → RotKey C} {a : SwKey C}
    (hrk : ∀ id ∈ ctIn.parties, rkSet.get id (normRot (C.N / 2) rot).toNat = .ok (rk id))
    (ha : crs.get? (normRot (C.N / 2) rot) = some a) {ks ks' : KS C} (hr : ks.Reach)
    (hr' : ks'.Reach) :
    ∃ k1 k2 r1 r2, ks.Rotate crs ctIn rot rkSet ctOut o = .ok (k1, r1) ∧
      ks'.Rotate crs ctIn rot rkSet ctOut' o' = .ok (k2, r2) ∧ r1.Same r2 := by
  obtain ⟨k1, r1, e1, -, c1⟩ := rotate_spec hN hC H hrk ha ks (C28_reach_ok hr)
  obtain ⟨k2, r2, e2, -, c2⟩ := rotate_spec hN hC H' hrk ha ks' (C28_reach_ok hr')
  exact ⟨k1, k2, r1, r2, e1, e2, c1.same c2⟩

/-- **C28 (conjugation).** -/
theorem C28_conjugate {k : ℕ} (hN : C.N = 2 ^ k) (hC : C.Good)
    {ctIn ctOut ctOut' : Ct C} {o o' : RotOrd} (H : RotShape C.lq ctIn ctOut o)
    (H' : RotShape C.lq ctIn ctOut' o') {crs : CRS C}
    {ckSet : KeySet (ConjKey C)} {ck : String → ConjKey C} {u : SwKey C}
    (hck : ∀ id ∈ ctIn.parties, ckSet.get id = .ok (ck id)) (hu : crs.get? (-2) = some u)
    {ks ks' : KS C} (hr : ks.Reach) (hr' : ks'.Reach) :
    ∃ k1 k2 r1 r2, ks.Conjugate crs ctIn ckSet ctOut o = .ok (k1, r1) ∧
      ks'.Conjugate crs ctIn ckSet ctOut' o' = .ok (k2, r2) ∧ r1.Same r2 := by
  obtain ⟨L0, hL0, w0⟩ := H.wfIn
  obtain ⟨k1, r1, e1, -, c1⟩ := conjugate_spec hN hC hL0 w0 H.wfOut H.keysOut hck hu H.ord ks
    (C28_reach_ok hr)
  obtain ⟨k2, r2, e2, -, c2⟩ := conjugate_spec hN hC hL0 w0 H'.wfOut H'.keysOut hck hu H'.ord ks'
    (C28_reach_ok hr')
  exact ⟨k1, k2, r1, r2, e1, e2, c1.same c2⟩

end MK
