import Verif.MulSpec

/-!
# The product law of the multiplication (ring level)
-/

noncomputable section

namespace MK

open Finset

variable {C : Ctx}

/-- The relinearization keys of the parties in `S` were generated for the secrets `s` with
ephemeral secrets `r`, common reference vectors `a`, `u` and errors `eb`, `ed`, `ev`. -/
structure RelinFor (S : Finset String) (rk : String → RelinKey C) (a u : SwKey C)
    (s r : String → Nega C.N ℤ) (eb ed ev : String → ℕ → Nega C.N ℤ) : Prop where
  b : ∀ id ∈ S, SwEq (rk id).b a (s id) 0 (eb id)
  d : ∀ id ∈ S, SwEq (rk id).d a (r id) (s id) (ed id)
  v : ∀ id ∈ S, SwEq (rk id).v u (s id) (-(r id)) (fun k => -(ev id k))

/-- `P` times a bound on the noise a multiplication adds: `n0`, `n1` parties, digits below
`D0`, `D1`, re-decomposed digits below `D`, secrets below `T`, errors below `B`. -/
def mulNoise (C : Ctx) (L n0 n1 : ℕ) (D0 D1 D T B : ℤ) : ℤ :=
  (C.beta L * (n0 * (n1 * (C.N * ((C.N * (D0 * D1)) * (C.N * (T * B) + C.N * (T * B)))))) +
    (n1 * (C.N * (T * (2 * C.P))) + n0 * (C.N * (T * (2 * C.P))))) +
    n0 * extNoise C L D T B

theorem SwEq.kvQ {key a : SwKey C} {t m : Nega C.N ℤ} {e : ℕ → Nega C.N ℤ}
    (h : SwEq key a t m e) {L : ℕ} (hL : L < C.nQ) {k : ℕ} (hk : k < C.beta L) {i : ℕ}
    (hi : i ≤ L) : key.kv.Q k i = Nega.red (C.q i) (e k) +
      (gad C k i : Nega C.N (ZMod (C.q i))) * Nega.red (C.q i) m -
      a.kv.Q k i * Nega.red (C.q i) t :=
  h.q k (lt_of_lt_of_le hk (beta_le_betaMax hL)) i (by omega)

theorem SwEq.kvP {key a : SwKey C} {t m : Nega C.N ℤ} {e : ℕ → Nega C.N ℤ}
    (h : SwEq key a t m e) {L : ℕ} (hL : L < C.nQ) {k : ℕ} (hk : k < C.beta L) {j : ℕ}
    (hj : j < C.nP) : key.kv.P k j = Nega.red (C.p j) (e k) -
      a.kv.P k j * Nega.red (C.p j) t :=
  h.p k (lt_of_lt_of_le hk (beta_le_betaMax hL)) j hj

theorem Nega.Bdd.sum_const {N : ℕ} [NeZero N] {ι : Type _} (S : Finset ι)
    (f : ι → Nega N ℤ) {B : ℤ} (h : ∀ i ∈ S, (f i).Bdd B) :
    (∑ i ∈ S, f i).Bdd (S.card * B) := by
  refine (Nega.Bdd.sum S f (fun _ => B) h).mono ?_
  rw [Finset.sum_const, nsmul_eq_mul]

/-- The cross terms: `Σ_j s_j Ext(c1_j, x) - Σ_i r_i Ext(c0_i, y) = Σ_ij c0_i c1_j s_i s_j + W`. -/
theorem cross_terms (hC : C.Good) (hF : C.Fits) (I : MulIn C) (hL : I.L < C.nQ)
    {rk : String → RelinKey C} {a u : SwKey C} {s r : String → Nega C.N ℤ}
    {eb ed ev : String → ℕ → Nega C.N ℤ}
    (hk : RelinFor (I.S0 ∪ I.S1) rk a u s r eb ed ev)
    (hd : I.d = fun id => (rk id).d.kv) (hb : I.b = fun id => (rk id).b.kv)
    (hd0 : ∀ id ∈ I.S0, IsDigits C I.L (I.h0 id) (I.c0 id))
    (hd1 : ∀ id ∈ I.S1, IsDigits C I.L (I.h1 id) (I.c1 id)) {D0 D1 T B : ℤ}
    (hD0 : ∀ id ∈ I.S0, ∀ k < C.beta I.L, (I.h0 id k).Bdd D0)
    (hD1 : ∀ id ∈ I.S1, ∀ k < C.beta I.L, (I.h1 id k).Bdd D1)
    (hs : ∀ id ∈ I.S0 ∪ I.S1, (s id).Bdd T) (hr : ∀ id ∈ I.S0 ∪ I.S1, (r id).Bdd T)
    (heb : ∀ id ∈ I.S0 ∪ I.S1, ∀ k < C.beta I.L, (eb id k).Bdd B)
    (hed : ∀ id ∈ I.S0 ∪ I.S1, ∀ k < C.beta I.L, (ed id k).Bdd B) :
    ∃ W : Nega C.N ℤ, ((C.P : Nega C.N ℤ) * W).Bdd
        (C.beta I.L * (I.S0.card * (I.S1.card * (C.N * ((C.N * (D0 * D1)) *
          (C.N * (T * B) + C.N * (T * B)))))) +
        (I.S1.card * (C.N * (T * (2 * C.P))) + I.S0.card * (C.N * (T * (2 * C.P))))) ∧
      ∀ i ≤ I.L, ∑ j ∈ I.S1, Nega.red (C.q i) (s j) * ext C I.L (I.h1 j) I.X i -
          ∑ j ∈ I.S0, Nega.red (C.q i) (r j) * I.yhat j i =
        (∑ j ∈ I.S0, I.c0 j i * Nega.red (C.q i) (s j)) *
          (∑ j ∈ I.S1, I.c1 j i * Nega.red (C.q i) (s j)) + Nega.red (C.q i) W := by
  set E : Nega C.N ℤ := ∑ k ∈ range (C.beta I.L), ∑ i ∈ I.S0, ∑ j ∈ I.S1,
    (I.h0 i k * I.h1 j k) * (s j * ed i k - r i * eb j k) with hE
  obtain ⟨W, hW, hsum⟩ := modDown_sum hC (I.S1.disjSum I.S0)
    (Sum.elim s fun i => -(r i))
    (Sum.elim (fun j => accQ C I.L (I.h1 j) I.X) fun i => accQ C I.L (I.h0 i) I.Y)
    (Sum.elim (fun j => accP C I.L (I.h1 j) I.X) fun i => accP C I.L (I.h0 i) I.Y)
    (fun i => (∑ j ∈ I.S0, I.c0 j i * Nega.red (C.q i) (s j)) *
          (∑ j ∈ I.S1, I.c1 j i * Nega.red (C.q i) (s j))) E hL
    (fun i hi => by
      rw [Finset.sum_disjSum]
      simp only [Sum.elim_inl, Sum.elim_inr, map_neg, neg_mul]
      rw [Finset.sum_neg_distrib, ← sub_eq_add_neg]
      simp only [accQ, MulIn.X, MulIn.Y, keySum]
      have hl : ∑ j ∈ I.S1, Nega.red (C.q i) (s j) * ∑ k ∈ range (C.beta I.L),
            (∑ id ∈ I.S0, (I.d id).Q k i * Nega.red (C.q i) (I.h0 id k)) *
              Nega.red (C.q i) (I.h1 j k) -
          ∑ x ∈ I.S0, Nega.red (C.q i) (r x) * ∑ k ∈ range (C.beta I.L),
            (∑ id ∈ I.S1, (I.b id).Q k i * Nega.red (C.q i) (I.h1 id k)) *
              Nega.red (C.q i) (I.h0 x k) =
          ∑ k ∈ range (C.beta I.L), ∑ x ∈ I.S0, ∑ j ∈ I.S1,
            Nega.red (C.q i) (I.h0 x k) * Nega.red (C.q i) (I.h1 j k) *
            (Nega.red (C.q i) (s j) * (I.d x).Q k i - Nega.red (C.q i) (r x) * (I.b j).Q k i) := by
        have e1 : ∑ j ∈ I.S1, Nega.red (C.q i) (s j) * ∑ k ∈ range (C.beta I.L),
            (∑ id ∈ I.S0, (I.d id).Q k i * Nega.red (C.q i) (I.h0 id k)) *
              Nega.red (C.q i) (I.h1 j k) =
            ∑ k ∈ range (C.beta I.L), ∑ x ∈ I.S0, ∑ j ∈ I.S1,
            Nega.red (C.q i) (I.h0 x k) * Nega.red (C.q i) (I.h1 j k) *
            (Nega.red (C.q i) (s j) * (I.d x).Q k i) := by
          simp only [Finset.mul_sum, Finset.sum_mul]
          rw [Finset.sum_comm]
          refine Finset.sum_congr rfl fun k _ => ?_
          rw [Finset.sum_comm]
          refine Finset.sum_congr rfl fun x _ => Finset.sum_congr rfl fun j _ => ?_
          ring
        have e2 : ∑ x ∈ I.S0, Nega.red (C.q i) (r x) * ∑ k ∈ range (C.beta I.L),
            (∑ id ∈ I.S1, (I.b id).Q k i * Nega.red (C.q i) (I.h1 id k)) *
              Nega.red (C.q i) (I.h0 x k) =
            ∑ k ∈ range (C.beta I.L), ∑ x ∈ I.S0, ∑ j ∈ I.S1,
            Nega.red (C.q i) (I.h0 x k) * Nega.red (C.q i) (I.h1 j k) *
            (Nega.red (C.q i) (r x) * (I.b j).Q k i) := by
          simp only [Finset.mul_sum, Finset.sum_mul]
          rw [Finset.sum_comm]
          refine Finset.sum_congr rfl fun k _ => ?_
          refine Finset.sum_congr rfl fun x _ => Finset.sum_congr rfl fun j _ => ?_
          ring
        rw [e1, e2]
        simp only [← Finset.sum_sub_distrib, mul_sub]
      rw [hl, hE]
      simp only [map_sum, map_mul, map_sub]
      have hterm : ∀ k ∈ range (C.beta I.L), ∀ x ∈ I.S0, ∀ j ∈ I.S1,
          Nega.red (C.q i) (I.h0 x k) * Nega.red (C.q i) (I.h1 j k) *
            (Nega.red (C.q i) (s j) * (I.d x).Q k i - Nega.red (C.q i) (r x) * (I.b j).Q k i) =
          (gad C k i : Nega C.N (ZMod (C.q i))) * (Nega.red (C.q i) (I.h0 x k) *
            Nega.red (C.q i) (s x) * (Nega.red (C.q i) (I.h1 j k) * Nega.red (C.q i) (s j))) +
          Nega.red (C.q i) (I.h0 x k) * Nega.red (C.q i) (I.h1 j k) *
            (Nega.red (C.q i) (s j) * Nega.red (C.q i) (ed x k) -
              Nega.red (C.q i) (r x) * Nega.red (C.q i) (eb j k)) := by
        intro k hk' x hx j hj
        rw [mem_range] at hk'
        rw [hd, hb]
        dsimp only
        rw [(hk.d x (mem_union_left _ hx)).kvQ hL hk' hi,
          (hk.b j (mem_union_right _ hj)).kvQ hL hk' hi, map_zero]
        ring
      rw [Finset.sum_congr rfl fun k hk' => Finset.sum_congr rfl fun x hx =>
        Finset.sum_congr rfl fun j hj => hterm k hk' x hx j hj]
      simp only [Finset.sum_add_distrib]
      congr 1
      have hg := sum_gad hC hi fun k => ∑ x ∈ I.S0, ∑ j ∈ I.S1, (Nega.red (C.q i) (I.h0 x k) *
            Nega.red (C.q i) (s x) * (Nega.red (C.q i) (I.h1 j k) * Nega.red (C.q i) (s j)))
      simp only [Finset.mul_sum] at hg
      rw [hg, Finset.sum_mul_sum, Finset.mul_sum]
      refine Finset.sum_congr rfl fun x hx => ?_
      rw [Finset.mul_sum]
      refine Finset.sum_congr rfl fun j hj => ?_
      rw [hd0 x hx i hi, hd1 j hj i hi])
    (fun i hi => by
      rw [Finset.sum_disjSum]
      simp only [Sum.elim_inl, Sum.elim_inr, map_neg, neg_mul]
      rw [Finset.sum_neg_distrib, ← sub_eq_add_neg]
      simp only [accP, MulIn.X, MulIn.Y, keySum]
      have e1 : ∑ j ∈ I.S1, Nega.red (C.p i) (s j) * ∑ k ∈ range (C.beta I.L),
            (∑ id ∈ I.S0, (I.d id).P k i * Nega.red (C.p i) (I.h0 id k)) *
              Nega.red (C.p i) (I.h1 j k) =
            ∑ k ∈ range (C.beta I.L), ∑ x ∈ I.S0, ∑ j ∈ I.S1,
            Nega.red (C.p i) (I.h0 x k) * Nega.red (C.p i) (I.h1 j k) *
            (Nega.red (C.p i) (s j) * (I.d x).P k i) := by
        simp only [Finset.mul_sum, Finset.sum_mul]
        rw [Finset.sum_comm]
        refine Finset.sum_congr rfl fun k _ => ?_
        rw [Finset.sum_comm]
        refine Finset.sum_congr rfl fun x _ => Finset.sum_congr rfl fun j _ => ?_
        ring
      have e2 : ∑ x ∈ I.S0, Nega.red (C.p i) (r x) * ∑ k ∈ range (C.beta I.L),
            (∑ id ∈ I.S1, (I.b id).P k i * Nega.red (C.p i) (I.h1 id k)) *
              Nega.red (C.p i) (I.h0 x k) =
            ∑ k ∈ range (C.beta I.L), ∑ x ∈ I.S0, ∑ j ∈ I.S1,
            Nega.red (C.p i) (I.h0 x k) * Nega.red (C.p i) (I.h1 j k) *
            (Nega.red (C.p i) (r x) * (I.b j).P k i) := by
        simp only [Finset.mul_sum, Finset.sum_mul]
        rw [Finset.sum_comm]
        refine Finset.sum_congr rfl fun k _ => ?_
        refine Finset.sum_congr rfl fun x _ => Finset.sum_congr rfl fun j _ => ?_
        ring
      rw [e1, e2, hE]
      simp only [map_sum, map_mul, map_sub, ← Finset.sum_sub_distrib]
      refine Finset.sum_congr rfl fun k hk' => Finset.sum_congr rfl fun x hx =>
        Finset.sum_congr rfl fun j hj => ?_
      rw [mem_range] at hk'
      rw [hd, hb]
      dsimp only
      rw [(hk.d x (mem_union_left _ hx)).kvP hL hk' hi,
        (hk.b j (mem_union_right _ hj)).kvP hL hk' hi]
      ring)
  refine ⟨W, ?_, fun i hi => ?_⟩
  · rw [hW, Finset.sum_disjSum]
    simp only [Sum.elim_inl, Sum.elim_inr]
    refine Nega.Bdd.sub ?_ (Nega.Bdd.add ?_ ?_)
    · rw [hE]
      refine (Nega.Bdd.sum_const _ _ fun k hk' => Nega.Bdd.sum_const I.S0 _ fun x hx =>
        Nega.Bdd.sum_const I.S1 _ fun j hj => Nega.Bdd.mul (Nega.Bdd.mul
          (hD0 x hx k (mem_range.mp hk')) (hD1 j hj k (mem_range.mp hk'))) (Nega.Bdd.sub
          (Nega.Bdd.mul (hs j (mem_union_right _ hj))
            (hed x (mem_union_left _ hx) k (mem_range.mp hk')))
          (Nega.Bdd.mul (hr x (mem_union_left _ hx))
            (heb j (mem_union_right _ hj) k (mem_range.mp hk'))))).mono ?_
      rw [card_range]
    · exact Nega.Bdd.sum_const _ _ fun j hj => Nega.Bdd.mul (hs j (mem_union_right _ hj))
        (liftP_bdd hC hF _)
    · exact Nega.Bdd.sum_const _ _ fun j hj => Nega.Bdd.mul
        (hr j (mem_union_left _ hj)).neg (liftP_bdd hC hF _)
  · have := hsum i hi
    rw [Finset.sum_disjSum] at this
    simp only [Sum.elim_inl, Sum.elim_inr, map_neg, neg_mul] at this
    rw [Finset.sum_neg_distrib, ← sub_eq_add_neg] at this
    exact this

/-- The phase of `(c_id)_{id ∈ S ∪ {"0"}}`. -/
def ringPhase (S : Finset String) (c : String → (i : ℕ) → Nega C.N (ZMod (C.q i)))
    (s : String → Nega C.N ℤ) (i : ℕ) : Nega C.N (ZMod (C.q i)) :=
  c "0" i + ∑ id ∈ S, c id i * Nega.red (C.q i) (s id)

/-- **Product law.** -/
theorem mul_phase (hC : C.Good) (hF : C.Fits) (I : MulIn C) (hL : I.L < C.nQ)
    (hS0 : "0" ∉ I.S0) (hS1 : "0" ∉ I.S1)
    {rk : String → RelinKey C} {a u : SwKey C} {s r : String → Nega C.N ℤ}
    {eb ed ev : String → ℕ → Nega C.N ℤ}
    (hk : RelinFor (I.S0 ∪ I.S1) rk a u s r eb ed ev)
    (hd : I.d = fun id => (rk id).d.kv) (hb : I.b = fun id => (rk id).b.kv)
    (hv : I.v = fun id => (rk id).v.kv) (hu : I.u = u.kv)
    (hd0 : ∀ id ∈ I.S0, IsDigits C I.L (I.h0 id) (I.c0 id))
    (hd1 : ∀ id ∈ I.S1, IsDigits C I.L (I.h1 id) (I.c1 id)) {D0 D1 D T B : ℤ}
    (hD0 : ∀ id ∈ I.S0, ∀ k < C.beta I.L, (I.h0 id k).Bdd D0)
    (hD1 : ∀ id ∈ I.S1, ∀ k < C.beta I.L, (I.h1 id k).Bdd D1)
    (hD : digitBound C I.L D)
    (hs : ∀ id ∈ I.S0 ∪ I.S1, (s id).Bdd T) (hr : ∀ id ∈ I.S0 ∪ I.S1, (r id).Bdd T)
    (heb : ∀ id ∈ I.S0 ∪ I.S1, ∀ k < C.beta I.L, (eb id k).Bdd B)
    (hed : ∀ id ∈ I.S0 ∪ I.S1, ∀ k < C.beta I.L, (ed id k).Bdd B)
    (hev : ∀ id ∈ I.S0 ∪ I.S1, ∀ k < C.beta I.L, (ev id k).Bdd B) :
    ∃ W : Nega C.N ℤ, ((C.P : Nega C.N ℤ) * W).Bdd
        (mulNoise C I.L I.S0.card I.S1.card D0 D1 D T B) ∧
      ∀ i ≤ I.L, ringPhase (I.S0 ∪ I.S1) I.res s i =
        ringPhase I.S0 I.c0 s i * ringPhase I.S1 I.c1 s i + Nega.red (C.q i) W := by
  obtain ⟨W', hW', hcross⟩ := cross_terms hC hF I hL hk hd hb hd0 hd1 hD0 hD1 hs hr heb hed
  have hvs : ∀ id : String, ∃ W : Nega C.N ℤ, id ∈ I.S0 →
      ((C.P : Nega C.N ℤ) * W).Bdd (extNoise C I.L D T B) ∧
      ∀ i ≤ I.L, ext C I.L (I.hy id) (rk id).v.kv i +
        Nega.red (C.q i) (s id) * ext C I.L (I.hy id) u.kv i =
        I.yhat id i * Nega.red (C.q i) (-(r id)) + Nega.red (C.q i) W := by
    intro id
    by_cases hid : id ∈ I.S0
    · obtain ⟨W, h1, h2⟩ := ext_pair_bdd hC hF (hk.v id (mem_union_left _ hid)) hL
        (digit_isDigits hC hL (I.yhat id)) (D := D) (T := T) (B := B)
        (fun k hk' => digit_Bdd hC hF hD hk' _) (hs id (mem_union_left _ hid))
        (fun k hk' => (hev id (mem_union_left _ hid) k hk').neg)
      exact ⟨W, fun _ => ⟨h1, h2⟩⟩
    · exact ⟨0, fun h => absurd h hid⟩
  choose Wv hWv using hvs
  refine ⟨W' + ∑ id ∈ I.S0, Wv id, ?_, fun i hi => ?_⟩
  · rw [mul_add, Finset.mul_sum]
    refine Nega.Bdd.add hW' (Nega.Bdd.sum_const _ _ fun id hid => (hWv id hid).1)
  · have hne : ∀ id ∈ I.S0 ∪ I.S1, id ≠ "0" := by
      rintro id hid rfl
      rcases mem_union.mp hid with h | h
      · exact hS0 h
      · exact hS1 h
    have hz : I.res "0" i = I.c0 "0" i * I.c1 "0" i +
        ∑ j ∈ I.S0, ext C I.L (I.hy j) (rk j).v.kv i := by
      unfold MulIn.res MulIn.out MulIn.tensor
      rw [if_pos rfl, if_neg hS1, if_pos rfl, add_zero, hv]
    have hid : ∀ id ∈ I.S0 ∪ I.S1, I.res id i * Nega.red (C.q i) (s id) =
        (if id ∈ I.S0 then I.c1 "0" i * (I.c0 id i * Nega.red (C.q i) (s id)) +
          Nega.red (C.q i) (s id) * ext C I.L (I.hy id) u.kv i else 0) +
        (if id ∈ I.S1 then I.c0 "0" i * (I.c1 id i * Nega.red (C.q i) (s id)) +
          Nega.red (C.q i) (s id) * ext C I.L (I.h1 id) I.X i else 0) := by
      intro id hid
      unfold MulIn.res MulIn.out MulIn.tensor
      rw [if_neg (hne id hid), if_neg (hne id hid), hu]
      by_cases h0 : id ∈ I.S0 <;> by_cases h1 : id ∈ I.S1 <;>
        simp only [h0, h1, if_true, if_false] <;> ring
    unfold ringPhase
    rw [Finset.sum_congr rfl hid, Finset.sum_add_distrib, ← Finset.sum_filter,
      ← Finset.sum_filter, hz]
    have f0 : (I.S0 ∪ I.S1).filter (fun x => x ∈ I.S0) = I.S0 := by
      ext x; simp only [mem_filter, mem_union]; tauto
    have f1 : (I.S0 ∪ I.S1).filter (fun x => x ∈ I.S1) = I.S1 := by
      ext x; simp only [mem_filter, mem_union]; tauto
    rw [f0, f1]
    have hvsum : ∑ j ∈ I.S0, ext C I.L (I.hy j) (rk j).v.kv i +
        ∑ j ∈ I.S0, Nega.red (C.q i) (s j) * ext C I.L (I.hy j) u.kv i =
        - ∑ j ∈ I.S0, Nega.red (C.q i) (r j) * I.yhat j i +
          Nega.red (C.q i) (∑ id ∈ I.S0, Wv id) := by
      rw [← Finset.sum_add_distrib, ← Finset.sum_neg_distrib, map_sum, ← Finset.sum_add_distrib]
      refine Finset.sum_congr rfl fun j hj => ?_
      rw [(hWv j hj).2 i hi, map_neg]
      ring
    have hc := hcross i hi
    simp only [Finset.sum_add_distrib, ← Finset.mul_sum]
    rw [map_add]
    linear_combination hvsum + hc

end MK
