import Verif.Helpers
import Verif.Props.ModDown
import Verif.Props.Utils
import Mathlib.LinearAlgebra.Pi

/-!
# C59, C60: functions of the repository no program calls
-/

namespace MK.Word

/-! ## The work arrays -/

/-- Two computations panic in the same way or return related values. -/
def Agree {α β : Type _} (R : α → β → Prop) : Go α → Go β → Prop
  | .ok a, .ok b => R a b
  | .error e, .error e' => e = e'
  | _, _ => False

theorem Agree.bind {α β α' β' : Type _} {R : α → β → Prop} {S : α' → β' → Prop} {m : Go α} {m' : Go β}
    (h : Agree R m m') {k : α → Go α'} {k' : β → Go β'} (hk : ∀ a b, R a b → Agree S (k a) (k' b)) :
    Agree S (m >>= k) (m' >>= k') := by
  cases m <;> cases m' <;> simp only [Agree] at h
  · subst h; rfl
  · exact hk _ _ h

theorem Agree.refl {α : Type _} (m : Go α) : Agree (fun a b => a = b) m m := by
  cases m <;> rfl

theorem Agree.eq {α : Type _} {m m' : Go α} (h : Agree (fun a b => a = b) m m') : m = m' := by
  cases m <;> cases m' <;> simp only [Agree] at h
  · rw [h]
  · rw [h]

theorem Agree.mono {α β : Type _} {R S : α → β → Prop} {m : Go α} {m' : Go β} (h : Agree R m m')
    (hRS : ∀ a b, R a b → S a b) : Agree S m m' := by
  cases m <;> cases m' <;> simp only [Agree] at h ⊢
  · exact h
  · exact hRS _ _ h

theorem Agree.range {σ τ : Type _} (n : ℕ) {b : ℕ → σ → Go σ} {b' : ℕ → τ → Go τ}
    (Inv : ℕ → σ → τ → Prop) {s : σ} {t : τ} (h0 : Inv 0 s t)
    (step : ∀ i s t, i < n → Inv i s t → Agree (Inv (i + 1)) (b i s) (b' i t)) :
    Agree (Inv n) (forEach (List.range n) b s) (forEach (List.range n) b' t) := by
  induction n with
  | zero => exact h0
  | succ n ih =>
    rw [List.range_succ, forEach_append, forEach_append]
    refine (ih fun i s t hi => step i s t (by omega)).bind fun s t hst => ?_
    simp only [forEach]
    refine (step n s t (by omega) hst).bind fun s t h => ?_
    exact h

/-- Lists of one length with the same first `n` entries. -/
def SameTo (n : ℕ) (l l' : List ℕ) : Prop := l.length = l'.length ∧ ∀ i < n, l[i]? = l'[i]?

theorem SameTo.idx {n : ℕ} {l l' : List ℕ} (h : SameTo n l l') {i : ℕ} (hi : i < n) :
    idx l i = idx l' i := by
  have := h.2 i hi
  unfold Word.idx
  simp only [this]

theorem SameTo.upd {n : ℕ} {l l' : List ℕ} (h : SameTo n l l') (a : ℕ) :
    Agree (SameTo (n + 1)) (upd l n a) (upd l' n a) := by
  by_cases hn : n < l.length
  · rw [upd_of_lt hn, upd_of_lt (h.1 ▸ hn)]
    refine ⟨by rw [List.length_set, List.length_set, h.1], fun i hi => ?_⟩
    rcases Nat.lt_succ_iff_lt_or_eq.mp hi with h1 | rfl
    · rw [List.getElem?_set_ne (by omega), List.getElem?_set_ne (by omega)]; exact h.2 i h1
    · rw [List.getElem?_set_self hn, List.getElem?_set_self (h.1 ▸ hn)]
  · have hn' := hn
    rw [h.1] at hn'
    simp only [Word.upd, hn, hn', if_false]
    rfl

theorem reconstructRNS_agree (F : Fl) (n : ℕ) (p Q QInv Qb : List ℕ) {y y' : List ℕ}
    (hy : y.length = y'.length) :
    Agree (fun a b => SameTo n a.1 b.1 ∧ a.2 = b.2) (reconstructRNS F n p y Q QInv Qb)
      (reconstructRNS F n p y' Q QInv Qb) := by
  unfold reconstructRNS
  refine (Agree.range n (fun i (s : List ℕ × ℚ) (t : List ℕ × ℚ) => SameTo i s.1 t.1 ∧ s.2 = t.2)
    (s := (y, 0)) (t := (y', 0)) ⟨⟨hy, fun i hi => by omega⟩, rfl⟩ ?_).bind fun s t h => ?_
  · rintro i ⟨s, v⟩ ⟨t, v'⟩ - ⟨h1, h2⟩
    dsimp only at h1 h2
    subst h2
    unfold reconStep
    refine (Agree.refl (idx Qb i)).bind fun c _ e => ?_
    subst e
    refine (Agree.refl (idx Q i)).bind fun q _ e => ?_
    subst e
    refine (Agree.refl (idx QInv i)).bind fun qi _ e => ?_
    subst e
    refine (Agree.refl (idx p i)).bind fun x _ e => ?_
    subst e
    refine (h1.upd _).bind fun a b hab => ?_
    exact ⟨hab, rfl⟩
  · exact ⟨h.1, by rw [h.2]⟩

theorem multSum_agree {n : ℕ} {y y' : List ℕ} (h : SameTo n y y') (v pj qInv : ℕ) (vt w : List ℕ) :
    multSum v y n pj qInv vt w = multSum v y' n pj qInv vt w := by
  unfold multSum
  have : forEach (List.range n) (multStep y w) (0, 0) = forEach (List.range n) (multStep y' w) (0, 0) := by
    refine Agree.eq (Agree.range n (fun _ s t => s = t) rfl ?_)
    rintro i s _ hi rfl
    unfold multStep
    rw [h.idx hi]
    exact Agree.refl _
  rw [this]

theorem modUpExact_agree (F : Fl) {y y' p2 p2' : List ℕ} (p1 Q P : List ℕ) (prm : ModupParams)
    (hy : y.length = y'.length) (hp : p2.length = p2'.length) :
    Agree (fun a b => SameTo p2.length a b ∧ a.length = p2.length) (modUpExact F y p1 p2 Q P prm)
      (modUpExact F y' p1 p2' Q P prm) := by
  unfold modUpExact
  refine (reconstructRNS_agree F p1.length p1 Q (Q.map MRedParams) prm.qoverqiinvqi hy).bind ?_
  rintro ⟨s, v⟩ ⟨t, v'⟩ ⟨h1, h2⟩
  dsimp only at h1 h2 ⊢
  subst h2
  rw [← hp]
  refine Agree.range p2.length (fun i a b => SameTo i a b ∧ a.length = p2.length)
    ⟨⟨hp, fun i hi => by omega⟩, rfl⟩ ?_
  rintro j a b hj ⟨ha, hl⟩
  unfold modUpStep
  refine (Agree.refl (idx P j)).bind fun c _ e => ?_
  subst e
  refine (Agree.refl (idx prm.vtimesqmodp j)).bind fun q _ e => ?_
  subst e
  refine (Agree.refl (idx prm.qoverqimodp j)).bind fun qi _ e => ?_
  subst e
  rw [multSum_agree h1]
  refine (Agree.refl _).bind fun x _ e => ?_
  subst e
  have hja : j < a.length := by omega
  have := ha.upd x
  rw [upd_of_lt hja] at this ⊢
  rw [upd_of_lt (ha.1 ▸ hja)] at this ⊢
  exact ⟨this, by rw [List.length_set, hl]⟩

theorem slice_agree {l l' : List ℕ} (h : l.length = l'.length) (n : ℕ) :
    Agree (fun a b => a = l.take n ∧ b = l'.take n ∧ n ≤ l.length) (sliceTo l n) (sliceTo l' n) := by
  by_cases hn : n ≤ l.length
  · rw [sliceTo_of_le hn, sliceTo_of_le (h ▸ hn)]
    exact ⟨rfl, rfl, hn⟩
  · have hn' := hn
    rw [h] at hn'
    simp only [sliceTo, hn, hn', if_false]
    rfl

theorem SameTo.append {n : ℕ} {a b l l' : List ℕ} (h : SameTo n a b) (ha : a.length = n)
    (hl : l.length = l'.length) : SameTo n (a ++ l.drop n) (b ++ l'.drop n) := by
  have hb : b.length = n := by rw [← h.1, ha]
  refine ⟨by simp only [List.length_append, List.length_drop]; omega, fun i hi => ?_⟩
  rw [List.getElem?_append_left (by omega), List.getElem?_append_left (by omega)]
  exact h.2 i hi

theorem modUp_agree (F : Fl) {y y' pol2 pol2' : List ℕ} (n1 n2 : ℕ) (pol1 Q P : List ℕ)
    (prms : List ModupParams) (k : ℕ) (hy : y.length = y'.length) (hp : pol2.length = pol2'.length) :
    Agree (SameTo (n2 + 1))
      (do let p1 ← sliceTo pol1 (n1 + 1)
          let p2 ← sliceTo pol2 (n2 + 1)
          let params ← idx prms k
          let r ← modUpExact F y p1 p2 Q P params
          pure (r ++ pol2.drop (n2 + 1)) : Go (List ℕ))
      (do let p1 ← sliceTo pol1 (n1 + 1)
          let p2 ← sliceTo pol2' (n2 + 1)
          let params ← idx prms k
          let r ← modUpExact F y' p1 p2 Q P params
          pure (r ++ pol2'.drop (n2 + 1)) : Go (List ℕ)) := by
  refine (Agree.refl _).bind fun p1 _ e => ?_
  subst e
  refine (slice_agree hp (n2 + 1)).bind ?_
  rintro p2 p2' ⟨rfl, rfl, hn⟩
  refine (Agree.refl _).bind fun prm _ e => ?_
  subst e
  have hl : (pol2.take (n2 + 1)).length = n2 + 1 := by rw [List.length_take]; omega
  refine (modUpExact_agree F p1 Q P prm hy (by simp only [List.length_take, hp])).bind ?_
  rintro a b ⟨h1, h2⟩
  rw [hl] at h1 h2
  exact h1.append h2 hp

theorem modDownLoop_agree {n : ℕ} {w w' : List ℕ} (h : SameTo n w w') (Q row x z : List ℕ) :
    forEach (List.range n) (Extender.modDownStep Q row x w) z =
      forEach (List.range n) (Extender.modDownStep Q row x w') z := by
  refine Agree.eq (Agree.range n (fun _ s t => s = t) rfl ?_)
  rintro i s _ hi rfl
  unfold Extender.modDownStep
  rw [h.idx hi]
  exact Agree.refl _

/-- **C59 (work arrays).** Whatever the tables and the operands, a basis reduction does the same
(result or panic) on any content of its work array and of its pool: an extender and a
`ShallowCopy` of it, which shares the tables and has pools of its own, are interchangeable. -/
theorem C59_ShallowCopy (F : Fl) (e : Extender) {y y' pool pool' : List ℕ}
    (hy : y.length = y'.length) (hp : pool.length = pool'.length) (levelQ levelP : ℕ)
    (p1Q p1P p2 : List ℕ) :
    e.ModDownQPtoQ F y pool levelQ levelP p1Q p1P p2 =
      e.ModDownQPtoQ F y' pool' levelQ levelP p1Q p1P p2 ∧
    e.ModDownQPtoP F y pool levelQ levelP p1Q p1P p2 =
      e.ModDownQPtoP F y' pool' levelQ levelP p1Q p1P p2 := by
  constructor
  · refine Agree.eq ?_
    unfold Extender.ModDownQPtoQ
    refine Agree.bind (R := SameTo (levelQ + 1))
      (modUp_agree F levelP levelQ p1P e.P e.Q e.paramsPtoQ levelP hy hp) fun a b h => ?_
    refine (Agree.refl _).bind fun row _ e => ?_
    subst e
    rw [modDownLoop_agree h]
    exact Agree.refl _
  · refine Agree.eq ?_
    unfold Extender.ModDownQPtoP
    refine Agree.bind (R := SameTo (levelP + 1))
      (modUp_agree F levelQ levelP p1Q e.Q e.P e.paramsQtoP levelQ hy hp) fun a b h => ?_
    refine (Agree.refl _).bind fun row _ e => ?_
    subst e
    rw [modDownLoop_agree h]
    exact Agree.refl _

/-- **C59 (work arrays, basis extension).** The words `ModUpQtoP` and `ModUpPtoQ` write do not
depend on the work array nor on the previous content of the target. -/
theorem C59_ModUp_scratch (F : Fl) (e : Extender) {y y' pool pool' : List ℕ}
    (hy : y.length = y'.length) (hp : pool.length = pool'.length) (levelQ levelP : ℕ)
    (pol : List ℕ) :
    (∀ out, e.ModUpQtoP F y levelQ levelP pol pool = .ok out →
      ∃ out', e.ModUpQtoP F y' levelQ levelP pol pool' = .ok out' ∧
        out.take (levelP + 1) = out'.take (levelP + 1)) ∧
    (∀ out, e.ModUpPtoQ F y levelP levelQ pol pool = .ok out →
      ∃ out', e.ModUpPtoQ F y' levelP levelQ pol pool' = .ok out' ∧
        out.take (levelQ + 1) = out'.take (levelQ + 1)) := by
  have key : ∀ {m m' : Go (List ℕ)} {n : ℕ}, Agree (SameTo n) m m' → ∀ out, m = .ok out →
      ∃ out', m' = .ok out' ∧ out.take n = out'.take n := by
    rintro m m' n h out rfl
    cases m' with
    | error => exact h.elim
    | ok b =>
      refine ⟨b, rfl, List.ext_getElem? fun i => ?_⟩
      by_cases hi : i < n
      · rw [List.getElem?_take_of_lt hi, List.getElem?_take_of_lt hi]; exact h.2 i hi
      · rw [List.getElem?_eq_none (by rw [List.length_take]; omega),
          List.getElem?_eq_none (by rw [List.length_take]; omega)]
  exact ⟨key (modUp_agree F levelQ levelP pol e.Q e.P e.paramsQtoP levelQ hy hp),
    key (modUp_agree F levelP levelQ pol e.P e.Q e.paramsPtoQ levelP hy hp)⟩

/-! ## ModDownQPtoQNTT -/

variable {N : ℕ}

theorem col_length (p : List (Fin N → ℕ)) (n : Fin N) : (col p n).length = p.length :=
  List.length_map _

theorem col_get (p : List (Fin N → ℕ)) (n : Fin N) (i : ℕ) : (col p n)[i]? = p[i]?.map (· n) :=
  List.getElem?_map ..

theorem setCol_length {p : List (Fin N → ℕ)} {n : Fin N} {c : List ℕ} (h : c.length = p.length) :
    (setCol p n c).length = p.length := by
  rw [setCol, List.length_zipWith, h, min_self]

theorem col_setCol {p : List (Fin N → ℕ)} {n : Fin N} {c : List ℕ} (h : c.length = p.length) :
    col (setCol p n c) n = c := by
  refine List.ext_getElem (by rw [col_length, setCol_length h, h]) fun i h1 h2 => ?_
  simp only [col, setCol, List.getElem_map, List.getElem_zipWith, Function.update_self]

theorem col_setCol_ne {p : List (Fin N → ℕ)} {n m : Fin N} (hm : m ≠ n) {c : List ℕ}
    (h : c.length = p.length) : col (setCol p n c) m = col p m := by
  refine List.ext_getElem (by rw [col_length, setCol_length h, col_length]) fun i h1 h2 => ?_
  simp only [col, setCol, List.getElem_map, List.getElem_zipWith, Function.update_of_ne hm]

/-- A loop over the coefficients whose iteration `n` replaces the column `n`. -/
theorem forEach_col {body : Fin N → List (Fin N → ℕ) → Go (List (Fin N → ℕ))}
    {Post : Fin N → List ℕ → Prop} {p : List (Fin N → ℕ)}
    (h : ∀ n p', p'.length = p.length → col p' n = col p n →
      ∃ c, body n p' = .ok (setCol p' n c) ∧ c.length = p.length ∧ Post n c) :
    ∃ out, forEach (List.finRange N) body p = .ok out ∧ out.length = p.length ∧
      ∀ n, Post n (col out n) := by
  have key : ∀ l : List (Fin N), l.Nodup → ∀ p', p'.length = p.length →
      (∀ n ∈ l, col p' n = col p n) → ∃ out, forEach l body p' = .ok out ∧ out.length = p.length ∧
        (∀ n ∈ l, Post n (col out n)) ∧ ∀ n, n ∉ l → col out n = col p' n := by
    intro l
    induction l with
    | nil => exact fun _ p' hl _ => ⟨p', rfl, hl, fun n hn => absurd hn (by simp), fun _ _ => rfl⟩
    | cons a l ih =>
      intro hnd p' hl hp
      obtain ⟨hal, hnd'⟩ := List.nodup_cons.mp hnd
      obtain ⟨c, e, hc, hpost⟩ := h a p' hl (hp a (by simp))
      have hc' : c.length = p'.length := by rw [hc, hl]
      obtain ⟨out, o1, o2, o3, o4⟩ := ih hnd' (setCol p' a c) (by rw [setCol_length hc', hl])
        (fun n hn => by
          rw [col_setCol_ne (by rintro rfl; exact hal hn) hc', hp n (by simp [hn])])
      refine ⟨out, ?_, o2, fun n hn => ?_, fun n hn => ?_⟩
      · simp only [forEach, e, Go.ok_bind, o1]
      · rcases List.mem_cons.mp hn with rfl | hn
        · rw [o4 n hal, col_setCol hc']; exact hpost
        · exact o3 n hn
      · rw [List.mem_cons, not_or] at hn
        rw [o4 n hn.2, col_setCol_ne hn.1 hc']
  obtain ⟨out, o1, o2, o3, -⟩ := key _ (List.nodup_finRange N) p rfl fun _ _ => rfl
  exact ⟨out, o1, o2, fun n => o3 n (List.mem_finRange n)⟩

/-- A loop over `0 … n-1` whose iteration `i` replaces row `i` by a value depending on the row. -/
theorem forEach_rows {α : Type _} {n : ℕ} {body : ℕ → List α → Go (List α)} {P : ℕ → α → α → Prop}
    {l : List α} (hl : n ≤ l.length)
    (step : ∀ i l' a, i < n → l'.length = l.length → l'[i]? = some a →
      ∃ r, body i l' = .ok (l'.set i r) ∧ P i a r) :
    ∃ l', forEach (List.range n) body l = .ok l' ∧ l'.length = l.length ∧
      (∀ i < n, ∃ a r, l[i]? = some a ∧ l'[i]? = some r ∧ P i a r) ∧ ∀ i, n ≤ i → l'[i]? = l[i]? := by
  obtain ⟨l', e, h1, h2, h3⟩ := forEach_range n body (fun k l' => l'.length = l.length ∧
    (∀ i < k, ∃ a r, l[i]? = some a ∧ l'[i]? = some r ∧ P i a r) ∧ ∀ i, k ≤ i → l'[i]? = l[i]?) l
    ⟨rfl, fun i hi => absurd hi (by omega), fun i _ => rfl⟩ (by
      rintro i l1 hi ⟨a1, a2, a3⟩
      have hli : l[i]? = some (l[i]'(by omega)) := List.getElem?_eq_getElem (by omega)
      obtain ⟨r, e, hr⟩ := step i l1 _ hi a1 ((a3 i le_rfl).trans hli)
      refine ⟨_, e, by rw [List.length_set, a1], fun k hk => ?_, fun k hk => ?_⟩
      · rcases Nat.lt_succ_iff_lt_or_eq.mp hk with h | h
        · rw [List.getElem?_set_ne (by omega)]; exact a2 k h
        · subst h
          exact ⟨_, r, hli, by rw [List.getElem?_set_self (by omega)], hr⟩
      · rw [List.getElem?_set_ne (by omega)]; exact a3 k (by omega))
  exact ⟨l', e, h1, h2, h3⟩

/-- What the proof uses of lattigo's lazy transforms for a modulus `q`: up to reduction modulo `q`
they are a linear bijection `lin` and its inverse; the forward transform turns words below `6q`
into words below `6q`, the inverse returns 64-bit words. -/
structure LazyNTT.Ok (T : LazyNTT N) (q : ℕ) (lin : (Fin N → ZMod q) ≃ₗ[ZMod q] (Fin N → ZMod q)) :
    Prop where
  fwd_lt : ∀ x, (∀ n, x n < 6 * q) → ∀ n, T.fwd q x n < 6 * q
  fwd : ∀ x n, (T.fwd q x n : ZMod q) = lin (fun m => (x m : ZMod q)) n
  inv_lt : ∀ x n, T.inv q x n < 2 ^ 64
  inv : ∀ x n, (T.inv q x n : ZMod q) = lin.symm (fun m => (x m : ZMod q)) n

variable {F : Fl} {Q P : List ℕ}

/-- **C59 (ModDownQPtoQNTT).** `x` is the integer polynomial (one integer per coefficient) whose
transforms modulo the `q_i` (words at most `2q_i`) and `p_j` are `p1Q` and `p1P`.  No panic; row
`i ≤ levelQ` of the result is reduced and is the transform of `⌊x/P⌋ + d`, `d ∈ {-1, 0, 1}` for
every coefficient and `0` unless `x mod P` is within `P/2^42` of `0` or `P`; rows above are
untouched.  `p1P` is overwritten with the coefficients of `x` modulo `p_j`, out of the transform
domain. -/
theorem C59_ModDownQPtoQNTT (hF : F.Ok) (hQ : ∀ q ∈ Q, Modulus q) (hP : ∀ p ∈ P, Modulus p)
    (hn : P.Nodup) (hd : ∀ q ∈ Q, q ∉ P) {levelQ levelP : ℕ} (hlQ : levelQ < Q.length)
    (hlP : levelP < P.length) (h32 : levelP < 32) {T : LazyNTT N}
    {lin : (q : ℕ) → (Fin N → ZMod q) ≃ₗ[ZMod q] (Fin N → ZMod q)}
    (hTQ : ∀ q ∈ Q, T.Ok q (lin q)) (hTP : ∀ p ∈ P, T.Ok p (lin p))
    {y : List ℕ} (hy : y.length = 32) {pool p1Q p1P p2Q : List (Fin N → ℕ)}
    (hpool : levelQ < pool.length) (hp1Q : levelQ < p1Q.length)
    (hp1P : levelP < p1P.length) (hw : ∀ r ∈ p1P, ∀ n, r n < 2 ^ 64) (hp2Q : levelQ < p2Q.length) (x : Fin N → ℤ)
    (hx2 : ∀ i q r, i ≤ levelQ → Q[i]? = some q → p1Q[i]? = some r → ∀ n, r n ≤ 2 * q)
    (hxQ : ∀ i q r, i ≤ levelQ → Q[i]? = some q → p1Q[i]? = some r →
      ∀ n, (r n : ZMod q) = lin q (fun m => (x m : ZMod q)) n)
    (hxP : ∀ j p r, j ≤ levelP → P[j]? = some p → p1P[j]? = some r →
      ∀ n, (r n : ZMod p) = lin p (fun m => (x m : ZMod p)) n) :
    ∃ (out p1P' : List (Fin N → ℕ)) (d : Fin N → ℤ),
      (newExtender Q P).ModDownQPtoQNTT F T y pool levelQ levelP p1Q p1P p2Q = .ok (out, p1P') ∧
      out.length = p2Q.length ∧ (∀ n, |d n| ≤ 1) ∧
      (∀ i q, i ≤ levelQ → Q[i]? = some q → ∃ r, out[i]? = some r ∧ ∀ n, r n < q ∧
        (r n : ZMod q) =
          lin q (fun m => ((x m / ((P.take (levelP + 1)).prod : ℕ) + d m : ℤ) : ZMod q)) n) ∧
      (∀ i, levelQ < i → out[i]? = p2Q[i]?) ∧
      (∀ n, ((P.take (levelP + 1)).prod : ℕ) ≤ x n % ((P.take (levelP + 1)).prod : ℕ) * 2 ^ 42 →
        x n % ((P.take (levelP + 1)).prod : ℕ) * 2 ^ 42 <
          ((P.take (levelP + 1)).prod : ℕ) * (2 ^ 42 - 1) → d n = 0) ∧
      (∀ j p, j ≤ levelP → P[j]? = some p → ∃ r, p1P'[j]? = some r ∧
        ∀ n, (r n : ℤ) ≡ x n [ZMOD p]) := by
  -- the inverse transform of `p1P`
  obtain ⟨p1P', a1, a2, a3, a4⟩ := forEach_rows (n := levelP + 1) (l := p1P)
    (body := fun j p => do
      let m ← idx (newExtender Q P).P j
      let row ← idx p j
      upd p j (T.inv m row))
    (P := fun j a r => r = T.inv (fam P j) a) (by omega) (by
      intro j l' a hj hl' ha
      refine ⟨_, ?_, rfl⟩
      have : (newExtender Q P).P[j]? = some (fam P j) := get?_fam (show j < P.length by omega)
      simp only [idx_of_get? this, idx_of_get? ha, Go.ok_bind,
        upd_of_lt (show j < l'.length by omega)])
  have hcoef : ∀ j p r, j ≤ levelP → P[j]? = some p → p1P'[j]? = some r →
      (∀ n, (r n : ℤ) ≡ x n [ZMOD p]) ∧ ∀ n, r n < 2 ^ 64 := by
    intro j p r hj hp hr
    obtain ⟨a, r', ha, hr', e⟩ := a3 j (by omega)
    have hpj : fam P j = p := by
      rw [get?_fam (by omega)] at hp
      exact Option.some.inj hp
    rw [hr] at hr'
    rw [Option.some.inj hr', e, hpj]
    have hok := hTP p (List.mem_of_getElem? hp)
    refine ⟨fun n => ?_, hok.inv_lt _⟩
    rw [modEq_iff_cast, Int.cast_natCast, hok.inv]
    have := funext (hxP j p a hj hp ha)
    rw [this]
    show ((lin p).symm ((lin p) fun m => (x m : ZMod p))) n = _
    rw [LinearEquiv.symm_apply_apply]
  -- the lift of every column
  obtain ⟨-, g⟩ := genModDownParams_spec hQ hP hd
  obtain ⟨row, g1, g2⟩ := g levelP hlP
  set D := (P.take (levelP + 1)).prod with hD
  have hup := forEach_col (p := pool)
    (body := fun n pool => do
      let c ← (newExtender Q P).ModUpPtoQ F y levelP levelQ (col p1P' n) (col pool n)
      pure (setCol pool n c))
    (Post := fun n c => ∃ d : ℤ, |d| ≤ 1 ∧
      (∀ i q, i ≤ levelQ → Q[i]? = some q → ∃ w, c[i]? = some w ∧
        (w : ℤ) ≡ x n % (D : ℕ) + d * (D : ℕ) [ZMOD q] ∧ w < 6 * q) ∧
      ((D : ℕ) ≤ x n % (D : ℕ) * 2 ^ 42 → x n % (D : ℕ) * 2 ^ 42 < (D : ℕ) * (2 ^ 42 - 1) → d = 0))
    (by
      intro n p' hl' _
      obtain ⟨r1, r2, r3⟩ := residue_mod (levelP := levelP) (x := x n) hP (p1P := col p1P' n) (by
        intro j p w hj hp hw
        rw [col_get] at hw
        obtain ⟨r, hr, rfl⟩ := Option.map_eq_some_iff.mp hw
        exact (hcoef j p r hj hp hr).1 n)
      obtain ⟨up, d, u1, u2, u3, u4, -, u6⟩ := C31_ModUpPtoQ hF hQ hP hn hlP hlQ h32 hy
        (polP := col p1P' n) (polQ := col p' n) (by rw [col_length]; omega)
        (by rw [col_length]; omega) (by
          intro w hwc
          obtain ⟨j, hj⟩ := List.getElem?_of_mem hwc
          rw [col_get] at hj
          obtain ⟨r, hr, rfl⟩ := Option.map_eq_some_iff.mp hj
          by_cases hjl : j ≤ levelP
          · exact (hcoef j _ r hjl (get?_fam (by omega)) hr).2 n
          · rw [a4 j (by omega)] at hr
            exact hw r (List.mem_of_getElem? hr) n) r1 r3
      refine ⟨up, by simp only [u1, Go.ok_bind]; rfl, by rw [u2, col_length, hl'], d, u3, ?_, ?_⟩
      · intro i q hi hq
        obtain ⟨w, w1, w2, w3, -⟩ := u4 i q hi hq
        rw [r2] at w2
        exact ⟨w, w1, w2, w3⟩
      · intro h1 h2
        refine u6 ?_ ?_
        · rw [← r2] at h1; exact_mod_cast h1
        · rw [← r2] at h2
          have h42 : ((2 ^ 42 - 1 : ℕ) : ℤ) = 2 ^ 42 - 1 := by norm_num
          rw [← h42] at h2
          exact_mod_cast h2)
  obtain ⟨up, u1, u2, u3⟩ := hup
  choose d d1 d2 d3 using u3
  -- the rows of the result
  obtain ⟨st, s1, s2, s3, s4, s5, s6⟩ := forEach_range (levelQ + 1)
    ((newExtender Q P).modDownNTTStep T levelP p1Q)
    (fun k st => st.1.length = up.length ∧ st.2.length = p2Q.length ∧
      (∀ i, k ≤ i → st.1[i]? = up[i]?) ∧
      (∀ i < k, ∃ r, st.2[i]? = some r ∧ ∀ n, r n < fam Q i ∧
        (r n : ZMod (fam Q i)) * (D : ℕ) = lin (fam Q i) (fun m => ((x m -
          (x m % (D : ℕ) + d m * (D : ℕ)) : ℤ) : ZMod (fam Q i))) n) ∧
      (∀ i, k ≤ i → st.2[i]? = p2Q[i]?)) (up, p2Q)
    ⟨rfl, rfl, fun _ _ => rfl, fun i hi => absurd hi (by omega), fun _ _ => rfl⟩ (by
      rintro i ⟨pl, z⟩ hi ⟨i1, i2, i3, i4, i5⟩
      dsimp only at i1 i2 i3 i4 i5
      have hiQ : i < Q.length := by omega
      obtain ⟨c, c1, c2, c3⟩ := g2 i hiQ
      have hM := hQ _ (fam_mem hiQ)
      have hok := hTQ _ (fam_mem hiQ)
      have hxi : p1Q[i]? = some (p1Q[i]'(by omega)) := List.getElem?_eq_getElem (by omega)
      have hzi : z[i]? = some (z[i]'(by omega)) := List.getElem?_eq_getElem (by omega)
      have hui : up[i]? = some (up[i]'(by omega)) := List.getElem?_eq_getElem (by omega)
      have hpi : pl[i]? = some (up[i]'(by omega)) := (i3 i le_rfl).trans hui
      have hup : ∀ n, (up[i]'(by omega)) n < 6 * fam Q i ∧
          (((up[i]'(by omega)) n : ℕ) : ZMod (fam Q i)) =
            ((x n % (D : ℕ) + d n * (D : ℕ) : ℤ) : ZMod (fam Q i)) := by
        intro n
        obtain ⟨w, w1, w2, w3⟩ := d2 n i _ (by omega) (get?_fam hiQ)
        rw [col_get, hui] at w1
        have e := Option.some.inj w1
        dsimp only at e
        rw [e]
        rw [modEq_iff_cast, Int.cast_natCast] at w2
        exact ⟨w3, w2⟩
      have hword := fun n => modDown_word (x := (p1Q[i]'(by omega)) n) hM c2 c3
        (hok.fwd_lt _ (fun n => (hup n).1) n) (hx2 i _ _ (by omega) (get?_fam hiQ) hxi n)
      refine ⟨(pl.set i (T.fwd (fam Q i) (up[i]'(by omega))), z.set i fun n =>
        MRed (wsub (wadd (T.fwd (fam Q i) (up[i]'(by omega)) n) (wmul (fam Q i) 2))
          ((p1Q[i]'(by omega)) n)) (wsub (fam Q i) c) (fam Q i) (MRedParams (fam Q i))), ?_, ?_⟩
      · simp only [Extender.modDownNTTStep, idx_of_get? hxi, idx_of_get? hzi, idx_of_get? hpi,
          idx_of_get? (show (newExtender Q P).Q[i]? = some (fam Q i) from get?_fam hiQ),
          idx_of_get? (show (newExtender Q P).modDownparamsPtoQ[levelP]? = some row from g1),
          idx_of_get? c1, Go.ok_bind, upd_of_lt (show i < pl.length by omega),
          upd_of_lt (show i < z.length by omega)]
        rfl
      · refine ⟨by rw [List.length_set, i1], by rw [List.length_set, i2], fun k hk => ?_,
          fun k hk => ?_, fun k hk => ?_⟩
        · rw [List.getElem?_set_ne (by omega)]; exact i3 k (by omega)
        · rcases Nat.lt_succ_iff_lt_or_eq.mp hk with h | h
          · rw [List.getElem?_set_ne (by omega)]; exact i4 k h
          · subst h
            refine ⟨_, by rw [List.getElem?_set_self (by omega)], fun n => ⟨(hword n).1, ?_⟩⟩
            rw [(hword n).2, hxQ k _ _ (by omega) (get?_fam hiQ) hxi n, hok.fwd]
            have e : (fun m => (((up[k]'(by omega)) m : ℕ) : ZMod (fam Q k))) =
                fun m => ((x m % (D : ℕ) + d m * (D : ℕ) : ℤ) : ZMod (fam Q k)) :=
              funext fun m => (hup m).2
            rw [e, ← Pi.sub_apply, ← map_sub]
            refine congrFun (congrArg (lin (fam Q k)) (funext fun m => ?_)) n
            rw [Pi.sub_apply, ← Int.cast_sub]
        · rw [List.getElem?_set_ne (by omega)]; exact i5 k (by omega))
  refine ⟨st.2, p1P', fun n => -d n, ?_, s3, fun n => by rw [abs_neg]; exact d1 n, ?_,
    fun i hi => s6 i (by omega), fun n h1 h2 => neg_eq_zero.mpr (d3 n h1 h2), ?_⟩
  · have b1 : (newExtender Q P).invRows T levelP p1P = .ok p1P' := a1
    have b2 : (newExtender Q P).ModUpPtoQRows F y levelP levelQ p1P' pool = .ok up := u1
    simp only [Extender.ModDownQPtoQNTT, b1, b2, s1, Go.ok_bind]
    rfl
  · intro i q hi hq
    obtain ⟨r, r1, r2⟩ := s5 i (by omega)
    rw [get?_fam (by omega)] at hq
    rw [← Option.some.inj hq]
    refine ⟨r, r1, fun n => ⟨(r2 n).1, ?_⟩⟩
    have hqm := fam_mem (Q := Q) (i := i) (by omega)
    have hcop := take_prod_coprime (hQ _ hqm) hP (hd _ hqm) (levelP + 1)
    have hinv := ZMod.coe_mul_inv_eq_one _ hcop
    have e : (fun m => ((x m - (x m % (D : ℕ) + d m * (D : ℕ)) : ℤ) : ZMod (fam Q i))) =
        (D : ZMod (fam Q i)) • fun m => ((x m / (D : ℕ) + -d m : ℤ) : ZMod (fam Q i)) := by
      funext m
      rw [Pi.smul_apply, smul_eq_mul]
      have := Int.emod_add_mul_ediv (x m) (D : ℕ)
      rw [show x m - (x m % (D : ℕ) + d m * (D : ℕ)) = (D : ℕ) * (x m / (D : ℕ) + -d m) by
        linear_combination -this]
      push_cast
      ring
    have h2 := (r2 n).2
    rw [e, map_smul, Pi.smul_apply, smul_eq_mul] at h2
    calc (r n : ZMod (fam Q i)) = (r n : ZMod (fam Q i)) * (D : ℕ) * (D : ZMod (fam Q i))⁻¹ := by
          rw [mul_assoc, hinv, mul_one]
      _ = _ := by
          rw [h2, mul_comm, ← mul_assoc, mul_comm _ (D : ZMod (fam Q i)), hinv, one_mul]
  · intro j p hj hp
    have hjl : p1P'[j]? = some (p1P'[j]'(by omega)) := List.getElem?_eq_getElem (by omega)
    exact ⟨_, hjl, (hcoef j p _ hj hp hjl).1⟩

end MK.Word

namespace MK.Utils

open MK.Word

/-! ## C60 -/

/-- What the proofs use of the rounding of `big.Float` to `prec` bits. -/
structure Prec (prec : ℕ) (rnd : ℚ → ℚ) : Prop where
  rel : ∀ x, |rnd x - x| ≤ |x| / 2 ^ prec
  half : rnd (1 / 2) = 1 / 2

theorem truncQ_near (x : ℚ) : |(truncQ x : ℚ)| ≤ |x| ∧ |x| < |(truncQ x : ℚ)| + 1 ∧
    (0 ≤ x → 0 ≤ truncQ x) ∧ (x ≤ 0 → truncQ x ≤ 0) := by
  unfold truncQ
  by_cases h : x < 0
  · have h0 : (0 : ℤ) ≤ ⌊-x⌋ := Int.floor_nonneg.mpr (by linarith)
    have h0' : (0 : ℚ) ≤ (⌊-x⌋ : ℤ) := by exact_mod_cast h0
    have h1 := Int.floor_le (-x)
    have h2 := Int.lt_floor_add_one (-x)
    rw [if_pos h]
    push_cast
    rw [abs_neg, abs_of_nonneg h0', abs_of_neg h]
    exact ⟨h1, h2, fun h' => absurd h (not_lt.mpr h'), fun _ => by omega⟩
  · have hx := not_lt.mp h
    have h0 : (0 : ℤ) ≤ ⌊x⌋ := Int.floor_nonneg.mpr hx
    have h0' : (0 : ℚ) ≤ (⌊x⌋ : ℤ) := by exact_mod_cast h0
    have h1 := Int.floor_le x
    have h2 := Int.lt_floor_add_one x
    rw [if_neg h, abs_of_nonneg h0', abs_of_nonneg hx]
    refine ⟨h1, h2, fun _ => h0, fun h' => ?_⟩
    have : x = 0 := le_antisymm h' hx
    rw [this]
    simp

/-- Truncating `x ± 1/2` (computed with an error of at most `e`) gives an integer within
`1/2 + e` of `x`. -/
theorem truncQ_half {x t e : ℚ} (ht : |t - (x + 1 / 2)| ≤ e) (he : e ≤ x + 1 / 2) :
    |(truncQ t : ℚ) - x| ≤ 1 / 2 + e := by
  obtain ⟨h1, h2⟩ := abs_le.mp ht
  have ht0 : 0 ≤ t := by linarith
  obtain ⟨t1, t2, t3, -⟩ := truncQ_near t
  have hz : (0 : ℚ) ≤ (truncQ t : ℚ) := by exact_mod_cast t3 ht0
  rw [abs_of_nonneg hz, abs_of_nonneg ht0] at t1 t2
  rw [abs_le]
  constructor <;> linarith

theorem truncQ_neg (x : ℚ) : truncQ (-x) = -truncQ x := by
  unfold truncQ
  rcases lt_trichotomy x 0 with h | h | h
  · rw [if_neg (by linarith), if_pos h, neg_neg]
  · subst h; simp
  · rw [if_pos (by linarith), if_neg (by linarith), neg_neg]

/-- The integer computed for one value: within rounding errors of the scaled value rounded to the
nearest integer. -/
theorem bigInt_near {prec : ℕ} (hp : 0 < prec) {rnd : ℚ → ℚ} (hr : Prec prec rnd) (value : ℚ)
    {scale : ℚ} (hs : 0 ≤ scale) :
    |(truncQ (if value < 0 then rnd (rnd (rnd scale * value) - 1 / 2)
        else rnd (rnd (rnd scale * value) + 1 / 2)) : ℚ) - scale * value| ≤
      1 / 2 + (5 * |scale * value| + 1) / 2 ^ prec := by
  obtain ⟨ε, hε⟩ : ∃ ε : ℚ, ε = 1 / 2 ^ prec := ⟨_, rfl⟩
  have hε0 : 0 ≤ ε := by rw [hε]; positivity
  have hε1 : ε ≤ 1 / 2 := by
    rw [hε]
    have : (2 : ℚ) ^ 1 ≤ 2 ^ prec := pow_le_pow_right₀ (by norm_num) hp
    exact one_div_le_one_div_of_le (by norm_num) (by simpa using this)
  have hrel : ∀ x, |rnd x - x| ≤ ε * |x| := fun x => by
    have := hr.rel x
    rw [hε, one_div, mul_comm, ← div_eq_mul_inv]; exact this
  have hgoal : (5 * |scale * value| + 1) / 2 ^ prec = ε * (5 * |scale * value| + 1) := by
    rw [hε]; ring
  rw [hgoal]
  obtain ⟨s, hsd⟩ : ∃ s, s = rnd scale := ⟨_, rfl⟩
  obtain ⟨x, hx⟩ : ∃ x, x = rnd (rnd scale * value) := ⟨_, rfl⟩
  have h1 := hrel scale
  have h2 := hrel (rnd scale * value)
  rw [← hsd] at h1 h2 hx
  rw [← hsd, ← hx]
  rw [← hx] at h2
  obtain ⟨a, ha⟩ : ∃ a, a = |scale * value| := ⟨_, rfl⟩
  have ha0 : 0 ≤ a := by rw [ha]; exact abs_nonneg _
  have hsv : |s * value - scale * value| ≤ ε * a := by
    rw [← sub_mul, abs_mul, ha, abs_mul]
    calc |s - scale| * |value| ≤ ε * |scale| * |value| :=
          mul_le_mul_of_nonneg_right h1 (abs_nonneg _)
      _ = ε * (|scale| * |value|) := by ring
  have hsa : |s * value| ≤ (1 + ε) * a := by
    calc |s * value| = |(s * value - scale * value) + scale * value| := by ring_nf
      _ ≤ |s * value - scale * value| + |scale * value| := abs_add_le _ _
      _ ≤ (1 + ε) * a := by rw [← ha]; linarith
  have hxs : |x - scale * value| ≤ (2 * ε + ε * ε) * a := by
    calc |x - scale * value| = |(x - s * value) + (s * value - scale * value)| := by ring_nf
      _ ≤ |x - s * value| + |s * value - scale * value| := abs_add_le _ _
      _ ≤ ε * ((1 + ε) * a) + ε * a := by
          refine add_le_add (h2.trans (mul_le_mul_of_nonneg_left hsa hε0)) hsv
      _ = _ := by ring
  have hxa : |x| ≤ (1 + 2 * ε + ε * ε) * a := by
    calc |x| = |(x - scale * value) + scale * value| := by ring_nf
      _ ≤ |x - scale * value| + |scale * value| := abs_add_le _ _
      _ ≤ _ := by rw [← ha]; linarith
  -- signs
  have hs0 : 0 ≤ s := by
    have := abs_le.mp h1
    rw [abs_of_nonneg hs] at this
    nlinarith [this.1]
  -- the last rounding
  have hfin : ∀ t : ℚ, |(truncQ t : ℚ) - x| ≤ 1 / 2 + ε * (|x| + 1 / 2) →
      |(truncQ t : ℚ) - scale * value| ≤ 1 / 2 + ε * (5 * a + 1) := by
    intro t ht
    have e1 : |(truncQ t : ℚ) - scale * value| ≤ |(truncQ t : ℚ) - x| + |x - scale * value| :=
      abs_sub_le _ _ _
    have e2 : ε * (|x| + 1 / 2) ≤ ε * ((1 + 2 * ε + ε * ε) * a + 1 / 2) :=
      mul_le_mul_of_nonneg_left (by linarith) hε0
    have e3 : ε * ε ≤ 1 / 2 * ε := by nlinarith
    have e4 : ε * ε * ε ≤ 1 / 4 * ε := by nlinarith
    have e5 : (2 * ε + ε * ε) * a + ε * ((1 + 2 * ε + ε * ε) * a + 1 / 2) ≤ ε * (5 * a + 1) := by
      nlinarith
    linarith
  rw [← ha]
  by_cases hv : value < 0
  · rw [if_pos hv]
    have hx0 : x ≤ 0 := by
      have hneg : s * value ≤ 0 := mul_nonpos_of_nonneg_of_nonpos hs0 hv.le
      have := abs_le.mp h2
      rw [abs_of_nonpos hneg] at this
      nlinarith [this.2]
    refine hfin _ ?_
    have h3 := hrel (x - 1 / 2)
    have habs : |x - 1 / 2| = |x| + 1 / 2 := by
      rw [abs_of_neg (by linarith), abs_of_nonpos hx0]; ring
    rw [habs] at h3
    have := truncQ_half (x := -x) (t := -rnd (x - 1 / 2)) (e := ε * (|x| + 1 / 2))
      (by rw [show -rnd (x - 1 / 2) - (-x + 1 / 2) = -(rnd (x - 1 / 2) - (x - 1 / 2)) by ring, abs_neg]
          exact h3)
      (by rw [abs_of_nonpos hx0]; nlinarith)
    rw [truncQ_neg] at this
    push_cast at this
    rwa [show -(truncQ (rnd (x - 1 / 2)) : ℚ) - -x = -((truncQ (rnd (x - 1 / 2)) : ℚ) - x) by ring,
      abs_neg] at this
  · rw [if_neg hv]
    have hx0 : 0 ≤ x := by
      have hpos : 0 ≤ s * value := mul_nonneg hs0 (not_lt.mp hv)
      have := abs_le.mp h2
      rw [abs_of_nonneg hpos] at this
      nlinarith [this.1]
    refine hfin _ ?_
    have h3 := hrel (x + 1 / 2)
    have habs : |x + 1 / 2| = |x| + 1 / 2 := by
      rw [abs_of_nonneg (by linarith), abs_of_nonneg hx0]
    rw [habs] at h3
    exact truncQ_half h3 (by rw [abs_of_nonneg hx0]; nlinarith)

/-- **C60 (one entry).** An entry of `scaleUpVecExactBigFloat` is congruent to an integer within
`1/2` (up to rounding in `prec` bits) of the scaled value; it is below `2q`, and reduced exactly
for the non-negative values: a negative value always yields a word in `[q, 2q)`. -/
theorem C60_scaleUpBig {prec : ℕ} (hp : 0 < prec) {rnd : ℚ → ℚ} (hr : Prec prec rnd) (value : ℚ)
    {scale : ℚ} (hs : 0 ≤ scale) {q : ℕ} (hq : 0 < q) (hq' : q < 2 ^ 63) :
    ∃ z : ℤ, |(z : ℚ) - scale * value| ≤ 1 / 2 + (5 * |scale * value| + 1) / 2 ^ prec ∧
      (scaleUpBig rnd value scale q : ℤ) ≡ z [ZMOD q] ∧ scaleUpBig rnd value scale q < 2 * q ∧
      (scaleUpBig rnd value scale q < q ↔ 0 ≤ value) := by
  refine ⟨_, bigInt_near hp hr value hs, ?_⟩
  have hqz : (0 : ℤ) < q := by exact_mod_cast hq
  unfold scaleUpBig
  rw [hr.half]
  dsimp only
  obtain ⟨z, hz⟩ : ∃ z, z = truncQ (if value < 0 then rnd (rnd (rnd scale * value) - 1 / 2)
        else rnd (rnd (rnd scale * value) + 1 / 2)) := ⟨_, rfl⟩
  rw [← hz]
  have h0 := Int.emod_nonneg z hqz.ne'
  have h1 := Int.emod_lt_of_pos z hqz
  have hm : (z % q) ≡ z [ZMOD q] := Int.mod_modEq z q
  by_cases hv : value < 0
  · rw [if_pos hv]
    have hn : ((z % q + q).toNat : ℤ) = z % q + q := Int.toNat_of_nonneg (by omega)
    have hlt : (z % q + q).toNat < 2 ^ 64 := by omega
    rw [Nat.mod_eq_of_lt hlt, hn]
    refine ⟨?_, by omega, ⟨fun h => by omega, fun h => absurd hv (not_lt.mpr h)⟩⟩
    have := hm.add_right (q : ℤ)
    exact this.trans (by simp [Int.ModEq])
  · rw [if_neg hv]
    have hn : ((z % q).toNat : ℤ) = z % q := Int.toNat_of_nonneg h0
    have hlt : (z % q).toNat < 2 ^ 64 := by omega
    rw [Nat.mod_eq_of_lt hlt, hn]
    exact ⟨hm, by omega, ⟨fun _ => not_lt.mp hv, fun _ => by omega⟩⟩

/-- **C60 (scaleDown).** The division is by `n`, with two roundings. -/
theorem C60_scaleDown {F : Fl} (hF : F.Ok) (coeff : ℤ) (n : ℚ) :
    |scaleDown F coeff n - coeff / n| ≤ 3 * |coeff / n| / 2 ^ 53 := by
  unfold scaleDown
  have h1 := hF.rel (coeff : ℚ)
  have h2 := hF.rel (F.rnd coeff / n)
  obtain ⟨a, ha⟩ : ∃ a, a = |(coeff : ℚ) / n| := ⟨_, rfl⟩
  have ha0 : 0 ≤ a := by rw [ha]; exact abs_nonneg _
  have h3 : |F.rnd coeff / n - coeff / n| ≤ a / 2 ^ 53 := by
    rw [← sub_div, abs_div, ha, abs_div, div_right_comm]
    exact div_le_div_of_nonneg_right h1 (abs_nonneg _)
  have h4 : |F.rnd coeff / n| ≤ a + a / 2 ^ 53 := by
    calc |F.rnd coeff / n| = |(F.rnd coeff / n - coeff / n) + coeff / n| := by ring_nf
      _ ≤ |F.rnd coeff / n - coeff / n| + |(coeff : ℚ) / n| := abs_add_le _ _
      _ ≤ _ := by rw [← ha]; linarith
  rw [← ha]
  have h5 := abs_sub_le (F.rnd (F.rnd coeff / n)) (F.rnd coeff / n) ((coeff : ℚ) / n)
  have h6 : |F.rnd coeff / n| / 2 ^ 53 ≤ (a + a / 2 ^ 53) / 2 ^ 53 :=
    div_le_div_of_nonneg_right h4 (by positivity)
  have h7 : (a + a / 2 ^ 53) / 2 ^ 53 + a / 2 ^ 53 ≤ 3 * a / 2 ^ 53 := by
    have : a / 2 ^ 53 ≤ a := div_le_self ha0 (by norm_num)
    have h8 : (a + a / 2 ^ 53) / 2 ^ 53 ≤ (a + a) / 2 ^ 53 :=
      div_le_div_of_nonneg_right (by linarith) (by positivity)
    have h9 : (a + a) / 2 ^ 53 + a / 2 ^ 53 = 3 * a / 2 ^ 53 := by ring
    linarith
  linarith

/-- **C60 (scaleDown, the comment).** The documented quotient by `n²` is not computed. -/
theorem C60_scaleDown_not_square {F : Fl} (hF : F.Ok) {coeff : ℤ} (hc : coeff ≠ 0) {n : ℚ}
    (hn : 2 ≤ n) : scaleDown F coeff n ≠ coeff / n ^ 2 := by
  intro h
  have h1 := C60_scaleDown hF coeff n
  have hn0 : n ≠ 0 := by linarith
  have hcq : (coeff : ℚ) ≠ 0 := by exact_mod_cast hc
  have hpos : 0 < |(coeff : ℚ) / n| := abs_pos.mpr (div_ne_zero hcq hn0)
  have e : (coeff : ℚ) / n ^ 2 - coeff / n = (coeff / n) * (1 / n - 1) := by field_simp
  rw [h, e, abs_mul] at h1
  have h2 : 1 / n ≤ 1 / 2 := one_div_le_one_div_of_le (by norm_num) hn
  have h3 : (1 : ℚ) / 2 ≤ |1 / n - 1| := by
    rw [abs_of_nonpos (by linarith)]; linarith
  have h4 : |(coeff : ℚ) / n| * (1 / 2) ≤ |(coeff : ℚ) / n| * |1 / n - 1| :=
    mul_le_mul_of_nonneg_left h3 hpos.le
  have h5 : 3 * |(coeff : ℚ) / n| / 2 ^ 53 < |(coeff : ℚ) / n| * (1 / 2) := by
    have : (3 : ℚ) / 2 ^ 53 < 1 / 2 := by norm_num
    calc 3 * |(coeff : ℚ) / n| / 2 ^ 53 = |(coeff : ℚ) / n| * (3 / 2 ^ 53) := by ring
      _ < _ := mul_lt_mul_of_pos_left this hpos
  linarith

/-- **C60 (round trip).** Scaling a value down again after `scaleUpExact` at the same scale gives
the value back, up to the rounding to an integer and the errors of float64. -/
theorem C60_roundtrip {F : Fl} (hF : F.Ok) (value : ℚ) {n : ℚ} (hn : 1 ≤ n) {q : ℕ} (hq : 0 < q) :
    ∃ z : ℤ, (scaleUpExact F value n q : ℤ) ≡ z [ZMOD q] ∧
      |scaleDown F z n - value| ≤ 1 / n + (|value| * 7 + 4) / 2 ^ 53 := by
  obtain ⟨z, h1, h2, -, -⟩ := C45_scaleUpExact hF value (show 0 ≤ n by linarith) hq
  refine ⟨z, h2, ?_⟩
  have hn0 : 0 < n := by linarith
  have h3 := C60_scaleDown hF z n
  obtain ⟨ε, hε⟩ : ∃ ε : ℚ, ε = 1 / 2 ^ 53 := ⟨_, rfl⟩
  have hε0 : 0 < ε := by rw [hε]; positivity
  have hε1 : ε ≤ 1 / 100 := by rw [hε]; norm_num
  have hnv : |n * value| = n * |value| := by rw [abs_mul, abs_of_pos hn0]
  have hv := abs_nonneg value
  have h4 : |(z : ℚ) / n - value| ≤ 1 / (2 * n) + ε * (3 * |value| + 1) := by
    have e : (z : ℚ) / n - value = (z - n * value) / n := by field_simp
    rw [e, abs_div, abs_of_pos hn0, div_le_iff₀ hn0]
    have e2 : (1 / (2 * n) + ε * (3 * |value| + 1)) * n =
        1 / 2 + ε * (3 * (n * |value|) + n) := by
      have : 1 / (2 * n) * n = 1 / 2 := by field_simp
      linear_combination this
    rw [e2]
    refine h1.trans ?_
    rw [hnv]
    have : (3 * (n * |value|) + 1) / 2 ^ 53 = ε * (3 * (n * |value|) + 1) := by rw [hε]; ring
    rw [this]
    have : ε * (3 * (n * |value|) + 1) ≤ ε * (3 * (n * |value|) + n) :=
      mul_le_mul_of_nonneg_left (by linarith) hε0.le
    linarith
  have h5 : |(z : ℚ) / n| ≤ |value| + (1 / (2 * n) + ε * (3 * |value| + 1)) := by
    calc |(z : ℚ) / n| = |((z : ℚ) / n - value) + value| := by ring_nf
      _ ≤ |(z : ℚ) / n - value| + |value| := abs_add_le _ _
      _ ≤ _ := by linarith
  have h6 := abs_sub_le (scaleDown F z n) ((z : ℚ) / n) value
  have h7 : 3 * |(z : ℚ) / n| / 2 ^ 53 = ε * (3 * |(z : ℚ) / n|) := by rw [hε]; ring
  rw [h7] at h3
  have h8 : ε * (3 * |(z : ℚ) / n|) ≤ ε * (3 * (|value| + (1 / (2 * n) + ε * (3 * |value| + 1)))) :=
    mul_le_mul_of_nonneg_left (by linarith) hε0.le
  have h9 : (|value| * 7 + 4) / 2 ^ 53 = ε * (|value| * 7 + 4) := by rw [hε]; ring
  rw [h9]
  have h10 : 1 / (2 * n) ≤ 1 / 2 := one_div_le_one_div_of_le (by norm_num) (by linarith)
  have h11 : 1 / n = 1 / (2 * n) + 1 / (2 * n) := by field_simp; norm_num
  have h12 : 0 < 1 / (2 * n) := by positivity
  have h13 : ε * (3 * |value| + 1) ≤ 1 / 100 * (3 * |value| + 1) :=
    mul_le_mul_of_nonneg_right hε1 (by linarith)
  have h14 : ε * (3 * (|value| + (1 / (2 * n) + ε * (3 * |value| + 1)))) + ε * (3 * |value| + 1) ≤
      ε * (|value| * 7 + 4) := by
    rw [← mul_add]
    refine mul_le_mul_of_nonneg_left ?_ hε0.le
    linarith
  linarith

/-- **C60 (vector).** `scaleUpVecExactBigFloat` on a non-empty vector that fits: every entry is the
scaled value of C60; unlike `scaleUpVecExact`, the entries past the vector keep their old
content. -/
theorem C60_scaleUpVecExactBigFloat (rnd : ℚ → ℚ) {values : List ℚ} (hne : values ≠ []) (scale : ℚ)
    (moduli : List ℕ) {coeffs : List (List ℕ)} {M : ℕ} (hM : ∀ row ∈ coeffs, row.length = M)
    (hmod : moduli.length ≤ coeffs.length) (hval : values.length ≤ M) :
    ∃ out, scaleUpVecExactBigFloat rnd values scale moduli coeffs = .ok out ∧
      out.length = coeffs.length ∧ (∀ row ∈ out, row.length = M) ∧
      (∀ j (hj : j < moduli.length) i (hi : i < values.length),
        at2 out j i = some (scaleUpBig rnd values[i] scale moduli[j])) ∧
      (∀ j i, values.length ≤ i ∨ moduli.length ≤ j → at2 out j i = at2 coeffs j i) := by
  obtain ⟨c1, e1, l1, m1, v1⟩ := forN_inv values.length (fun i coeffs => do
      let v ← idx values i
      forN moduli.length (fun j coeffs => do
        let q ← idx moduli j
        upd2 coeffs j i (scaleUpBig rnd v scale q)) coeffs)
    (fun t c => c.length = coeffs.length ∧ (∀ row ∈ c, row.length = M) ∧ ∀ j i, at2 c j i =
      if i < t ∧ j < moduli.length then
        some (scaleUpBig rnd (values.getD i 0) scale (moduli.getD j 0)) else at2 coeffs j i) coeffs
    ⟨rfl, hM, fun j i => by simp⟩ (by
      rintro t ht c ⟨a1, a2, a3⟩
      rw [idx_of_lt ht, Go.ok_bind]
      obtain ⟨c', b1, b2, b3, b4⟩ := forN_inv moduli.length (fun j coeffs => do
          let q ← idx moduli j
          upd2 coeffs j t (scaleUpBig rnd values[t] scale q))
        (fun u c' => c'.length = coeffs.length ∧ (∀ row ∈ c', row.length = M) ∧ ∀ j i, at2 c' j i =
          if i = t ∧ j < u then some (scaleUpBig rnd (values.getD i 0) scale (moduli.getD j 0))
          else at2 c j i) c ⟨a1, a2, fun j i => by simp⟩ (by
          rintro u hu' c' ⟨d1, d2, d3⟩
          rw [idx_of_lt hu', Go.ok_bind]
          obtain ⟨c'', f1, f2, f3, f4⟩ := upd2_spec d2 (j := u) (i := t) (by omega) (by omega)
            (scaleUpBig rnd values[t] scale moduli[u])
          refine ⟨c'', f1, f2.trans d1, f3, fun j i => ?_⟩
          rw [f4]
          by_cases h : j = u ∧ i = t
          · obtain ⟨rfl, rfl⟩ := h
            rw [if_pos ⟨rfl, rfl⟩, if_pos ⟨rfl, Nat.lt_succ_self _⟩,
              List.getD_eq_getElem _ _ ht, List.getD_eq_getElem _ _ hu']
          · rw [if_neg h, d3]
            have : (i = t ∧ j < u) ↔ (i = t ∧ j < u + 1) := by omega
            simp only [this])
      refine ⟨c', b1, b2, b3, fun j i => ?_⟩
      rw [b4, a3]
      by_cases h : i = t ∧ j < moduli.length
      · rw [if_pos h, if_pos ⟨by omega, h.2⟩]
      · rw [if_neg h]
        have : (i < t ∧ j < moduli.length) ↔ (i < t + 1 ∧ j < moduli.length) := by omega
        simp only [this])
  refine ⟨c1, ?_, l1, m1, fun j hj i hi => ?_, fun j i h => ?_⟩
  · unfold scaleUpVecExactBigFloat
    rw [idx_of_lt (List.length_pos_iff.mpr hne), Go.ok_bind]
    exact e1
  · rw [v1, if_pos ⟨hi, hj⟩, List.getD_eq_getElem _ _ hi, List.getD_eq_getElem _ _ hj]
  · rw [v1, if_neg (by omega)]

/-- **C60 (empty vector).** `values[0]` panics. -/
theorem C60_scaleUpVecExactBigFloat_empty (rnd : ℚ → ℚ) (scale : ℚ) (moduli : List ℕ)
    (coeffs : List (List ℕ)) :
    scaleUpVecExactBigFloat rnd [] scale moduli coeffs = .error .indexRange := by
  unfold scaleUpVecExactBigFloat
  rw [idx_panics (by simp)]
  rfl

theorem foldl_add_map (f : ℝ → ℝ) (l : List ℝ) (a : ℝ) :
    l.foldl (fun err c => err + f c) a = a + (l.map f).sum := by
  induction l generalizing a with
  | nil => simp
  | cons c l ih => simp only [List.foldl_cons, ih, List.map_cons, List.sum_cons]; ring

theorem sum_quadratic (l : List ℝ) (a b d : ℝ) :
    (l.map fun c => a * c ^ 2 + b * c + d).sum =
      a * (l.map (· ^ 2)).sum + b * l.sum + d * l.length := by
  induction l with
  | nil => simp
  | cons c l ih =>
    simp only [List.map_cons, List.sum_cons, ih, List.length_cons]
    push_cast
    ring

/-- **C60 (StandardDeviation).** On a non-empty vector the result `s` has the sign of the scale and
`2n²s²` is the square of the scale times the sum of the squared differences of all pairs of
entries; on the empty vector it is NaN. -/
theorem C60_StandardDeviation (vec : List ℝ) (scale : ℝ) :
    (vec = [] → StandardDeviation vec scale = none) ∧
    (vec ≠ [] → ∃ s, StandardDeviation vec scale = some s ∧
      2 * (vec.length : ℝ) ^ 2 * s ^ 2 =
        scale ^ 2 * (vec.map fun a => (vec.map fun b => (a - b) ^ 2).sum).sum ∧
      (0 ≤ scale → 0 ≤ s) ∧ (scale ≤ 0 → s ≤ 0)) := by
  constructor
  · rintro rfl
    simp [StandardDeviation]
  · intro hne
    have hn : (vec.length : ℝ) ≠ 0 := by
      have := List.length_pos_iff.mpr hne
      positivity
    have hn0 : (0 : ℝ) < vec.length := by
      have := List.length_pos_iff.mpr hne
      exact_mod_cast this
    have hmean : vec.foldl (fun mean c => mean + c) (0 : ℝ) = vec.sum := by
      have := foldl_add_map id vec 0
      simpa using this
    obtain ⟨m, hm⟩ : ∃ m, m = vec.sum / vec.length := ⟨_, rfl⟩
    obtain ⟨err, he⟩ : ∃ err, err = (vec.map fun c => (c - m) * (c - m)).sum := ⟨_, rfl⟩
    have he0 : 0 ≤ err := by
      rw [he]
      refine List.sum_nonneg fun x hx => ?_
      obtain ⟨c, -, rfl⟩ := List.mem_map.mp hx
      exact mul_self_nonneg _
    refine ⟨√(err / vec.length) * scale, ?_, ?_, ?_, ?_⟩
    · unfold StandardDeviation
      dsimp only
      rw [if_neg hn, hmean, ← hm, foldl_add_map (fun c => (c - m) * (c - m)), ← he, zero_add]
    · rw [mul_pow, Real.sq_sqrt (by positivity)]
      have h1 : err = (vec.map (· ^ 2)).sum - 2 * m * vec.sum + m ^ 2 * vec.length := by
        rw [he]
        have := sum_quadratic vec 1 (-2 * m) (m ^ 2)
        rw [show (fun c : ℝ => (c - m) * (c - m)) = fun c => 1 * c ^ 2 + -2 * m * c + m ^ 2 by
          funext c; ring, this]
        ring
      have h2 : (vec.map fun a => (vec.map fun b => (a - b) ^ 2).sum).sum =
          2 * vec.length * (vec.map (· ^ 2)).sum - 2 * vec.sum ^ 2 := by
        have e1 : (fun a : ℝ => (vec.map fun b => (a - b) ^ 2).sum) =
            fun a => vec.length * a ^ 2 + (-2 * vec.sum) * a + (vec.map (· ^ 2)).sum := by
          funext a
          have := sum_quadratic vec 1 (-2 * a) (a ^ 2)
          rw [show (fun b : ℝ => (a - b) ^ 2) = fun c => 1 * c ^ 2 + -2 * a * c + a ^ 2 by
            funext c; ring, this]
          ring
        rw [e1, sum_quadratic]
        ring
      have hms : m * vec.length = vec.sum := by rw [hm]; field_simp
      rw [h2, h1, ← hms]
      field_simp
      ring
    · intro hs
      exact mul_nonneg (Real.sqrt_nonneg _) hs
    · intro hs
      exact mul_nonpos_of_nonneg_of_nonpos (Real.sqrt_nonneg _) hs

/-- **C60 (StandardDeviation, the comment).** The code does not assume the errors to be centred:
the result is 0 exactly when all entries are equal, whatever their mean. -/
theorem C60_StandardDeviation_zero {vec : List ℝ} (hne : vec ≠ []) {scale : ℝ} (hs : scale ≠ 0) :
    StandardDeviation vec scale = some 0 ↔ ∀ a ∈ vec, ∀ b ∈ vec, a = b := by
  obtain ⟨s, e, h, -, -⟩ := (C60_StandardDeviation vec scale).2 hne
  rw [e, Option.some.injEq]
  have hn : (vec.length : ℝ) ≠ 0 := by
    have := List.length_pos_iff.mpr hne
    positivity
  have hnn : ∀ a, ∀ x ∈ vec.map (fun b => (a - b) ^ 2), (0 : ℝ) ≤ x := by
    intro a x hx
    obtain ⟨b, -, rfl⟩ := List.mem_map.mp hx
    positivity
  constructor
  · rintro rfl
    have h0 : (vec.map fun a => (vec.map fun b => (a - b) ^ 2).sum).sum = 0 := by
      have : scale ^ 2 * (vec.map fun a => (vec.map fun b => (a - b) ^ 2).sum).sum = 0 := by
        rw [← h]; ring
      exact (mul_eq_zero.mp this).resolve_left (pow_ne_zero 2 hs)
    intro a ha b hb
    have h1 := List.single_le_sum (l := vec.map fun a => (vec.map fun b => (a - b) ^ 2).sum) (by
      intro x hx
      obtain ⟨c, -, rfl⟩ := List.mem_map.mp hx
      exact List.sum_nonneg (hnn c)) _ (List.mem_map.mpr ⟨a, ha, rfl⟩)
    have h2 := List.single_le_sum (hnn a) _ (List.mem_map.mpr ⟨b, hb, rfl⟩)
    have h3 : (a - b) ^ 2 = 0 := le_antisymm (by linarith) (by positivity)
    have := pow_eq_zero_iff (two_ne_zero) |>.mp h3
    linarith
  · intro hall
    have h0 : (vec.map fun a => (vec.map fun b => (a - b) ^ 2).sum).sum = 0 := by
      refine List.sum_eq_zero fun x hx => ?_
      obtain ⟨a, ha, rfl⟩ := List.mem_map.mp hx
      refine List.sum_eq_zero fun y hy => ?_
      obtain ⟨b, hb, rfl⟩ := List.mem_map.mp hy
      rw [hall a ha b hb]; ring
    rw [h0, mul_zero] at h
    have h3 : s ^ 2 = 0 := (mul_eq_zero.mp h).resolve_left (by positivity)
    exact pow_eq_zero_iff (two_ne_zero) |>.mp h3

/-- **C60 (GenSecretKey, the comment).** The sampled coefficients are uniform on `-1, 0, 1`, as
documented, exactly for `p = 1/3`; `GenSecretKey` passes another `p`, and zeros are twice as
frequent as ones. -/
theorem C60_GenSecretKey_distribution :
    (∀ p, ternary p (-1) + ternary p 0 + ternary p 1 = 1) ∧
    (∀ p, (ternary p (-1) = ternary p 0 ∧ ternary p 0 = ternary p 1) ↔ p = 1 / 3) ∧
    genSecretKeyP ≠ 1 / 3 ∧ ternary genSecretKeyP 0 = 2 * ternary genSecretKeyP 1 ∧
    ternary genSecretKeyP 1 = ternary genSecretKeyP (-1) := by
  refine ⟨fun p => ?_, fun p => ?_, ?_, ?_, ?_⟩
  · simp only [ternary]; norm_num; ring
  · simp only [ternary]
    norm_num
    constructor
    · rintro ⟨h, -⟩; linarith
    · rintro rfl; norm_num
  all_goals simp only [ternary, genSecretKeyP]; norm_num

end MK.Utils
