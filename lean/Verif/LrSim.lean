import Verif.LrSpec

/-!
# Running the logistic-regression programs on two implementations side by side

The programs of `Verif/Lr.lean` are written for any implementation of the four operations in any
monad.  If two implementations are related operation by operation, the programs are related.
-/

namespace MK.Lr

/-- A relation between computations in two monads, closed under `pure` and `bind`. -/
structure MonadRel (M₁ M₂ : Type → Type) [Monad M₁] [Monad M₂] where
  rel : {α β : Type} → (α → β → Prop) → M₁ α → M₂ β → Prop
  pure : ∀ {α β : Type} {R : α → β → Prop} {a b}, R a b → rel R (pure a) (pure b)
  bind : ∀ {α β α' β' : Type} {R : α → β → Prop} {R' : α' → β' → Prop} {m₁ : M₁ α} {m₂ : M₂ β}
    {f₁ : α → M₁ α'} {f₂ : β → M₂ β'}, rel R m₁ m₂ → (∀ a b, R a b → rel R' (f₁ a) (f₂ b)) →
    rel R' (m₁ >>= f₁) (m₂ >>= f₂)

variable {M₁ M₂ : Type → Type} [Monad M₁] [Monad M₂] {C₁ C₂ P₁ P₂ : Type}

/-- The four operations are related.  `mulRelin true` is only used on one object. -/
structure HESim (ρ : MonadRel M₁ M₂) (h₁ : HE M₁ C₁ P₁) (h₂ : HE M₂ C₂ P₂) (RC : C₁ → C₂ → Prop)
    (RP : P₁ → P₂ → Prop) : Prop where
  mul : ∀ {a b a' b'}, RC a a' → RC b b' →
    ρ.rel RC (h₁.mulRelin false a b) (h₂.mulRelin false a' b')
  sq : ∀ {a a'}, RC a a' → ρ.rel RC (h₁.mulRelin true a a) (h₂.mulRelin true a' a')
  mulPtxt : ∀ {a a' p p'}, RC a a' → RP p p' → ρ.rel RC (h₁.mulPtxt a p) (h₂.mulPtxt a' p')
  add : ∀ {a b a' b'}, RC a a' → RC b b' → ρ.rel RC (h₁.add a b) (h₂.add a' b')
  rotate : ∀ {a a'} (k : ℤ), RC a a' → ρ.rel RC (h₁.rotate a k) (h₂.rotate a' k)

/-- Related constants. -/
structure ConstsRel (RC : C₁ → C₂ → Prop) (RP : P₁ → P₂ → Prop) (k₁ : Consts C₁ P₁)
    (k₂ : Consts C₂ P₂) : Prop where
  mask : RP k₁.mask k₂.mask
  c3 : RP k₁.c3 k₂.c3
  c4 : ∀ a, RP (k₁.c4 a) (k₂.c4 a)
  c5 : RC k₁.c5 k₂.c5
  c6 : ∀ a, RP (k₁.c6 a) (k₂.c6 a)
  c7 : ∀ a, RP (k₁.c7 a) (k₂.c7 a)
  c8 : RP k₁.c8 k₂.c8
  c9 : RC k₁.c9 k₂.c9

/-- Related data. -/
structure DataRel (RC : C₁ → C₂ → Prop) (RP : P₁ → P₂ → Prop) (d₁ : Data C₁ P₁)
    (d₂ : Data C₂ P₂) : Prop where
  z : RC d₁.z d₂.z
  k1 : RP d₁.k1 d₂.k1
  k2 : ∀ a, RP (d₁.k2 a) (d₂.k2 a)

/-- Related pairs. -/
def PairRel {α β : Type} (R : α → β → Prop) (p : α × α) (q : β × β) : Prop := R p.1 q.1 ∧ R p.2 q.2

variable {ρ : MonadRel M₁ M₂}

theorem forDouble_sim {σ τ : Type} {R : σ → τ → Prop} {b₁ : ℕ → σ → M₁ σ} {b₂ : ℕ → τ → M₂ τ}
    (n : ℕ) (hb : ∀ i s t, R s t → ρ.rel R (b₁ i s) (b₂ i t)) (i : ℕ) {s : σ} {t : τ} (h : R s t) :
    ρ.rel R (forDouble n i b₁ s) (forDouble n i b₂ t) := by
  have key : ∀ d i s t, n - i ≤ d → R s t →
      ρ.rel R (forDouble n i b₁ s) (forDouble n i b₂ t) := by
    intro d
    induction d with
    | zero =>
      intro i s t hd hst
      rw [forDouble, forDouble, dif_neg (by omega), dif_neg (by omega)]
      exact ρ.pure hst
    | succ d ih =>
      intro i s t hd hst
      rw [forDouble, forDouble]
      by_cases hi : i < n ∧ 0 < i
      · rw [dif_pos hi, dif_pos hi]
        exact ρ.bind (hb i s t hst) fun a b hab => ih _ _ _ (by omega) hab
      · rw [dif_neg hi, dif_neg hi]
        exact ρ.pure hst
  exact key _ i s t le_rfl h

theorem forUp_sim {σ τ : Type} {R : σ → τ → Prop} {b₁ : ℕ → σ → M₁ σ} {b₂ : ℕ → τ → M₂ τ}
    (n : ℕ) (hb : ∀ i, i < n → ∀ s t, R s t → ρ.rel R (b₁ i s) (b₂ i t)) {s : σ} {t : τ}
    (h : R s t) : ρ.rel R (forUp n b₁ s) (forUp n b₂ t) := by
  induction n with
  | zero => exact ρ.pure h
  | succ n ih =>
    exact ρ.bind (ih fun i hi => hb i (by omega)) fun a b hab => hb n (by omega) a b hab

variable {h₁ : HE M₁ C₁ P₁} {h₂ : HE M₂ C₂ P₂} {RC : C₁ → C₂ → Prop} {RP : P₁ → P₂ → Prop}
  (H : HESim ρ h₁ h₂ RC RP)

include H

theorem rotAdd_sim (k : ℕ → ℤ) (n i : ℕ) {x : C₁} {y : C₂} (h : RC x y) :
    ρ.rel RC
      (forDouble n i (fun i ct => do
        let r ← h₁.rotate ct (k i)
        h₁.add ct r) x)
      (forDouble n i (fun i ct => do
        let r ← h₂.rotate ct (k i)
        h₂.add ct r) y) :=
  forDouble_sim (R := RC) n
    (fun i _ _ hst => ρ.bind (H.rotate (k i) hst) fun _ _ hr => H.add hst hr) i h

theorem SumRowVec_sim {x : C₁} {y : C₂} (h : RC x y) (numRow numCol : ℕ) :
    ρ.rel RC (SumRowVec h₁ x numRow numCol) (SumRowVec h₂ y numRow numCol) :=
  rotAdd_sim H _ _ _ h

theorem SumColVec_sim {x : C₁} {y : C₂} (h : RC x y) {p : P₁} {q : P₂} (hp : RP p q) (numCol : ℕ) :
    ρ.rel RC (SumColVec h₁ x p numCol) (SumColVec h₂ y q numCol) :=
  ρ.bind (rotAdd_sim H _ _ _ h) fun _ _ h1 => ρ.bind (H.mulPtxt h1 hp) fun _ _ h2 =>
    rotAdd_sim H _ _ _ h2

/-- Related results of `depth3`. -/
def Rel5 (RC : C₁ → C₂ → Prop) (p : C₁ × C₁ × C₁ × C₁ × C₁) (q : C₂ × C₂ × C₂ × C₂ × C₂) : Prop :=
  RC p.1 q.1 ∧ RC p.2.1 q.2.1 ∧ RC p.2.2.1 q.2.2.1 ∧ RC p.2.2.2.1 q.2.2.2.1 ∧
    RC p.2.2.2.2 q.2.2.2.2

theorem depth3_sim {k₁ : Consts C₁ P₁} {k₂ : Consts C₂ P₂} (K : ConstsRel RC RP k₁ k₂)
    (numCol a : ℕ) {d₁ : Data C₁ P₁} {d₂ : Data C₂ P₂} (Dr : DataRel RC RP d₁ d₂) {v : C₁} {w : C₂}
    (h : RC v w) :
    ρ.rel (Rel5 RC) (depth3 h₁ k₁ numCol a d₁ v) (depth3 h₂ k₂ numCol a d₂ w) :=
  ρ.bind (H.mul Dr.z h) fun _ _ hm => ρ.bind (H.mulPtxt Dr.z Dr.k1) fun _ _ hz1 =>
  ρ.bind (H.mulPtxt Dr.z (Dr.k2 a)) fun _ _ hz2 => ρ.bind (H.mulPtxt Dr.z K.c3) fun _ _ hz3 =>
  ρ.bind (H.mulPtxt Dr.z (K.c4 a)) fun _ _ hz4 =>
  ρ.bind (SumColVec_sim H hm K.mask numCol) fun _ _ hm' => ρ.bind (H.sq hm') fun _ _ hq =>
  ρ.bind (H.add hq K.c5) fun _ _ hm2 => ρ.bind (H.mul hm' hz3) fun _ _ hm1 =>
  ρ.bind (H.mul hz4 hm') fun _ _ hs => ρ.pure ⟨hz1, hz2, hm2, hm1, hs⟩

theorem lrIter_sim {k₁ : Consts C₁ P₁} {k₂ : Consts C₂ P₂} (K : ConstsRel RC RP k₁ k₂)
    (numRow numCol : ℕ) {d₁ : Data C₁ P₁} {d₂ : Data C₂ P₂} (Dr : DataRel RC RP d₁ d₂) (a : ℕ)
    {s : C₁ × C₁} {t : C₂ × C₂} (h : PairRel RC s t) :
    ρ.rel (PairRel RC) (lrIter h₁ k₁ numRow numCol d₁ a s) (lrIter h₂ k₂ numRow numCol d₂ a t) := by
  obtain ⟨b, v⟩ := s
  obtain ⟨b', v'⟩ := t
  refine ρ.bind (depth3_sim H K numCol a Dr h.2) ?_
  rintro ⟨z1, z2, m2, m1, s⟩ ⟨z1', z2', m2', m1', s'⟩ ⟨hz1, hz2, hm2, hm1, hs⟩
  exact ρ.bind (H.mul hm1 hm2) fun _ _ hg => ρ.bind (H.add hg hz1) fun _ _ hg =>
    ρ.bind (SumRowVec_sim H hg _ _) fun _ _ hg => ρ.bind (H.add h.2 hg) fun _ _ hb =>
    ρ.bind (H.mul hs hm2) fun _ _ hu => ρ.bind (H.add hu hz2) fun _ _ hu =>
    ρ.bind (H.mulPtxt h.2 (K.c6 a)) fun _ _ hv => ρ.bind (H.mulPtxt h.1 (K.c7 a)) fun _ _ hb1 =>
    ρ.bind (H.add hv hb1) fun _ _ hv => ρ.bind (SumRowVec_sim H hu _ _) fun _ _ hu =>
    ρ.bind (H.add hv hu) fun _ _ hv => ρ.pure ⟨hb, hv⟩

theorem lrTrain_sim {k₁ : Consts C₁ P₁} {k₂ : Consts C₂ P₂} (K : ConstsRel RC RP k₁ k₂)
    (numRow numCol : ℕ) {d₁ : Data C₁ P₁} {d₂ : Data C₂ P₂} (Dr : DataRel RC RP d₁ d₂) (numIter : ℕ)
    {b v : C₁} {b' v' : C₂} (hb : RC b b') (hv : RC v v') :
    ρ.rel (PairRel RC) (lrTrain h₁ k₁ numRow numCol d₁ numIter b v)
      (lrTrain h₂ k₂ numRow numCol d₂ numIter b' v') :=
  forUp_sim numIter (fun a _ _ _ h => lrIter_sim H K numRow numCol Dr a h) ⟨hb, hv⟩

theorem mbCtStep_sim {k₁ : Consts C₁ P₁} {k₂ : Consts C₂ P₂} (K : ConstsRel RC RP k₁ k₂)
    (numCol a : ℕ) {d₁ : Data C₁ P₁} {d₂ : Data C₂ P₂} (Dr : DataRel RC RP d₁ d₂) {v : C₁} {w : C₂}
    (h : RC v w) {s : C₁ × C₁} {t : C₂ × C₂} (hst : PairRel RC s t) :
    ρ.rel (PairRel RC) (mbCtStep h₁ k₁ numCol a d₁ v s) (mbCtStep h₂ k₂ numCol a d₂ w t) := by
  refine ρ.bind (depth3_sim H K numCol a Dr h) ?_
  rintro ⟨z1, z2, m2, m1, s⟩ ⟨z1', z2', m2', m1', s'⟩ ⟨hz1, hz2, hm2, hm1, hs⟩
  exact ρ.bind (H.mul hm1 hm2) fun _ _ hg => ρ.bind (H.add hg hz1) fun _ _ hg =>
    ρ.bind (H.mul hs hm2) fun _ _ hu => ρ.bind (H.add hu hz2) fun _ _ hu =>
    ρ.bind (H.add hst.1 hg) fun _ _ hga => ρ.bind (H.add hst.2 hu) fun _ _ hua =>
    ρ.pure ⟨hga, hua⟩

theorem mbIter_sim {k₁ : Consts C₁ P₁} {k₂ : Consts C₂ P₂} (K : ConstsRel RC RP k₁ k₂)
    (numRow numCol numBatch numCt : ℕ) {d₁ : ℕ → ℕ → Data C₁ P₁} {d₂ : ℕ → ℕ → Data C₂ P₂}
    {z₁ : ℕ → C₁ × C₁} {z₂ : ℕ → C₂ × C₂} (a : ℕ)
    (Dr : ∀ c < numCt, DataRel RC RP (d₁ (a % numBatch) c) (d₂ (a % numBatch) c))
    (Z : PairRel RC (z₁ a) (z₂ a)) {s : C₁ × C₁} {t : C₂ × C₂} (h : PairRel RC s t) :
    ρ.rel (PairRel RC) (mbIter h₁ k₁ numRow numCol numBatch numCt d₁ z₁ a s)
      (mbIter h₂ k₂ numRow numCol numBatch numCt d₂ z₂ a t) := by
  obtain ⟨b, v⟩ := s
  obtain ⟨b', v'⟩ := t
  refine ρ.bind (forUp_sim numCt (fun c hc _ _ hst =>
    mbCtStep_sim H K numCol a (Dr c hc) h.2 hst) Z) ?_
  rintro ⟨g, u⟩ ⟨g', u'⟩ ⟨hg, hu⟩
  exact ρ.bind (SumRowVec_sim H hg _ _) fun _ _ hg => ρ.bind (H.add h.2 hg) fun _ _ hb =>
    ρ.bind (H.mulPtxt h.2 (K.c6 a)) fun _ _ hv => ρ.bind (H.mulPtxt h.1 (K.c7 a)) fun _ _ hb1 =>
    ρ.bind (H.add hv hb1) fun _ _ hv => ρ.bind (SumRowVec_sim H hu _ _) fun _ _ hu =>
    ρ.bind (H.add hv hu) fun _ _ hv => ρ.pure ⟨hb, hv⟩

theorem mbTrain_sim {k₁ : Consts C₁ P₁} {k₂ : Consts C₂ P₂} (K : ConstsRel RC RP k₁ k₂)
    (numRow numCol numBatch numCt : ℕ) {d₁ : ℕ → ℕ → Data C₁ P₁} {d₂ : ℕ → ℕ → Data C₂ P₂}
    (Dr : ∀ b c, DataRel RC RP (d₁ b c) (d₂ b c)) {z₁ : ℕ → C₁ × C₁} {z₂ : ℕ → C₂ × C₂}
    (Z : ∀ a, PairRel RC (z₁ a) (z₂ a)) (numIter : ℕ) {b v : C₁} {b' v' : C₂} (hb : RC b b')
    (hv : RC v v') :
    ρ.rel (PairRel RC) (mbTrain h₁ k₁ numRow numCol numBatch numCt d₁ z₁ numIter b v)
      (mbTrain h₂ k₂ numRow numCol numBatch numCt d₂ z₂ numIter b' v') :=
  forUp_sim numIter (fun a _ _ _ h => mbIter_sim H K numRow numCol numBatch numCt a
    (fun c _ => Dr _ c) (Z a) h) ⟨hb, hv⟩

theorem infer_sim {k₁ : Consts C₁ P₁} {k₂ : Consts C₂ P₂} (K : ConstsRel RC RP k₁ k₂)
    (numFeature : ℕ) {x : C₁} {x' : C₂} (hx : RC x x') {b : C₁} {b' : C₂} (hb : RC b b') :
    ρ.rel RC (infer h₁ k₁ numFeature x b) (infer h₂ k₂ numFeature x' b') :=
  ρ.bind (H.mul hx hb) fun _ _ h1 => ρ.bind (rotAdd_sim H _ _ _ h1) fun _ _ h2 =>
    ρ.bind (H.sq h2) fun _ _ h3 => ρ.bind (H.add h3 K.c5) fun _ _ h4 =>
    ρ.bind (H.mulPtxt h2 K.c8) fun _ _ h5 => ρ.bind (H.mul h4 h5) fun _ _ h6 => H.add h6 K.c9

end MK.Lr
