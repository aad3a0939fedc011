import Verif.Props.EvMul

/-!
# The unexported multiplication without hoisting (mkckks/evaluator.go 449-460)

`mulRelin` is called by nothing in the repository.  It multiplies into a ciphertext given by the
caller, decomposing inside `MulAndRelin`; these theorems say that it is the product the exported
functions compute.
-/

namespace MK

open Finset

variable {C : Ctx}

/-- Closed form of `mulRelin`; the output may stand at any level. -/
theorem mulRelin_spec (hC : C.Good) {prm : CPar C} {ev : Ev C} (hok : ev.Ok)
    {a b out : CCt C} {la lb lo n : ℕ} (wa : a.ct.Wf la false) (wb : b.ct.Wf lb false)
    (wo : out.ct.Wf lo false) (hp : out.ct.parties = a.ct.parties ∪ b.ct.parties)
    {u : SwKey C} (hu : prm.crs.get? (-1) = some u) {rlk : RlkSet C} {rk : String → RelinKey C}
    (hrk : HasKeys rlk (a.ct.parties ∪ b.ct.parties) rk) {L : ℕ} (hL : min (min la lb) lo = L)
    (hlt : L < C.nQ)
    (hn : RescaleBy prm.fl C.q prm.scale (prm.fl.rnd (a.scale * b.scale)) L n) (π : Sched) :
    ∃ ev' r, ev.mulRelin prm a b rlk out π = .ok (ev',
        ⟨r, scaleSeq prm.fl C.q L (prm.fl.rnd (a.scale * b.scale)) n⟩) ∧ ev'.Ok ∧
      CtIs r (L - n) (insert "0" (a.ct.parties ∪ b.ct.parties)) (fun id => divSeq (fun i =>
        ((mulInOf L a.ct b.ct rk u).res id i).coeff) L n) := by
  have hLa : L ≤ la := by omega
  have hLb : L ≤ lb := by omega
  have hLo : L ≤ lo := by omega
  have h0 : "0" ∈ out.ct.value.keys.toFinset := by
    rw [List.mem_toFinset]; exact wo.zero_mem
  have hkeys : ∀ id, id ∈ out.ct.value.keys.toFinset ↔
      id = "0" ∨ id ∈ a.ct.parties ∨ id ∈ b.ct.parties := by
    intro id
    rw [List.mem_toFinset, ← mem_union, ← hp, mem_parties]
    by_cases h : id = "0"
    · subst h; simpa using wo.zero_mem
    · simp [h]
  obtain ⟨o1, e0, ho⟩ : ∃ o1, (if L < lo then dropLevel out.ct (lo - L) (π.f 0 out.ct.value.keys)
      else pure out.ct) = .ok o1 ∧ CtIs o1 L out.ct.value.keys.toFinset out.ct.rowsOf := by
    split
    · obtain ⟨r, e, h⟩ := dropLevel_spec wo.ctIs h0 (n := lo - L) (Nat.sub_le _ _)
        (π.isOrder 0 out.ct.value)
      exact ⟨r, e, by rwa [show lo - (lo - L) = L by omega] at h⟩
    · exact ⟨_, rfl, by rw [show L = lo by omega]; exact wo.ctIs⟩
  have wo1 := ho.toWf h0
  have hsh : MulShape L a.ct b.ct o1 (((π.sub 1)).mulOrd a.ct b.ct o1) :=
    { lt := hlt
      wf0 := ⟨la, hLa, wa⟩
      wf1 := ⟨lb, hLb, wb⟩
      wfOut := wo1
      keysOut := fun id => by rw [ho.mem, hkeys]
      ord := Sched.mulOrd_ok _ wa.wf wb.wf }
  obtain ⟨ks', ct', e1, hks, hct⟩ := mulCore_spec hC (hsh.pre (u := u) hrk) (lastPlain_spec hC hu L)
    ev.ksw hok.ksw
  obtain ⟨err, pool, r, e2, hr, _⟩ := rescaleSelf_spec (prm := prm) (ms := prm.scale)
    (ct := ⟨ct', prm.fl.rnd (a.scale * b.scale)⟩) (ev := { ev with ksw := ks' })
    (mem_insert_self _ _) hct hn (π.sub 2)
  refine ⟨{ ev with ksw := ks', polyQ := pool }, r, ?_, ⟨hks, hok.pool⟩, hr⟩
  unfold Ev.mulRelin
  simp only [wa.level, wb.level, wo.level, Go.ok_bind, hL]
  have e1' : ev.ksw.MulAndRelin prm.crs a.ct b.ct rlk o1 ((π.sub 1).mulOrd a.ct b.ct o1) =
    .ok (ks', ct') := e1
  have fin : ∀ x, x = Except.ok o1 → (do
      let out ← (x : Go (Ct C))
      let y ← KS.MulAndRelin prm.crs ev.ksw a.ct b.ct rlk out ((π.sub 1).mulOrd a.ct b.ct out)
      let z ← Ev.rescaleSelf prm ({ ev with ksw := y.1 } : Ev C)
        { ct := y.2, scale := prm.fl.rnd (a.scale * b.scale) } prm.scale (π.sub 2)
      pure (z.2.1, z.2.2)) = (Except.ok ({ ev with ksw := ks', polyQ := pool },
        ⟨r, scaleSeq prm.fl C.q L (prm.fl.rnd (a.scale * b.scale)) n⟩) : Go (Ev C × CCt C)) := by
    rintro _ rfl
    simp only [e1', Go.ok_bind, e2]
    rfl
  split
  · rename_i h; rw [if_pos h] at e0; exact fin _ e0
  · rename_i h; rw [if_neg h] at e0; exact fin _ e0

/-- **C23 (`mulRelin`).** Into any ciphertext of the right parties that stands at the level of the
product or above, whatever it contains, `mulRelin` writes exactly the product of the exported
function without hoisted forms, with the same scale; and for an output below the operands the
scale is still the product of the scales, rescaled. -/
theorem C23_mulRelin (hC : C.Good) {prm : CPar C} {ev ev' : Ev C} (hok : ev.Ok) (hok' : ev'.Ok)
    {a b out : CCt C} {la lb lo n : ℕ} (wa : a.ct.Wf la false) (wb : b.ct.Wf lb false)
    (wo : out.ct.Wf lo false) (hp : out.ct.parties = a.ct.parties ∪ b.ct.parties)
    (hla : la < C.nQ) {u : SwKey C} (hu : prm.crs.get? (-1) = some u) {rlk rlk' : RlkSet C}
    {rk : String → RelinKey C} (hrk : HasKeys rlk (a.ct.parties ∪ b.ct.parties) rk)
    (hrk' : HasKeys rlk' (a.ct.parties ∪ b.ct.parties) rk)
    (hn : RescaleBy prm.fl C.q prm.scale (prm.fl.rnd (a.scale * b.scale))
      (min (min la lb) lo) n) (π π' : Sched) :
    ∃ e1 r1, ev.mulRelin prm a b rlk out π = .ok (e1, r1) ∧ e1.Ok ∧
      r1.ct.Wf (min (min la lb) lo - n) false ∧ r1.ct.parties = a.ct.parties ∪ b.ct.parties ∧
      r1.scale = scaleSeq prm.fl C.q (min (min la lb) lo) (prm.fl.rnd (a.scale * b.scale)) n ∧
      (min la lb ≤ lo → ∃ e2 r2, ev'.MulRelinHoistedNew prm a b none none rlk' π' = .ok (e2, r2) ∧
        r1.ct.Same r2.ct ∧ r1.scale = r2.scale) := by
  have hS : "0" ∉ a.ct.parties ∪ b.ct.parties := by
    rw [mem_union, not_or]
    exact ⟨zero_notMem_parties _, zero_notMem_parties _⟩
  have hlt : min (min la lb) lo < C.nQ :=
    lt_of_le_of_lt ((min_le_left _ _).trans (min_le_left _ _)) hla
  obtain ⟨e1, r1, q1, o1, hr1⟩ := mulRelin_spec hC hok wa wb wo hp hu hrk rfl hlt hn π
  refine ⟨e1, _, q1, o1, hr1.toWf (mem_insert_self _ _), hr1.parties hS, rfl, fun hlo => ?_⟩
  rw [min_eq_left hlo] at hn hr1 hlt
  have at' : ∀ ct : Ct C, HoistAt (min la lb) ct none (min la lb) :=
    fun ct => ⟨le_rfl, hlt, fun _ => rfl, fun _ h => by cases h⟩
  obtain ⟨e2, r2, q2, _, hr2⟩ := mulRelinHoistedNew_spec hC hok' wa wb hu hrk' (at' _) (at' _) hn π'
  exact ⟨e2, _, q2, hr1.same hr2, by rw [min_eq_left hlo]⟩

/-- **C21 (`mulRelin`).** The noise law of the product written into a given ciphertext, at whatever
level it stands: if the operands carry `ma` and `mb`, the result carries `m'` with
`(q_L ⋯ q_{L-n+1}) m' = ma·mb + W + Σ_k (q_L ⋯ q_{L-k+1}) e_k`. -/
theorem C21_mulRelin (hC : C.Good) (hF : C.Fits) {prm : CPar C} {ev : Ev C} (hok : ev.Ok)
    {a b out : CCt C} {la lb lo L n : ℕ} (wa : a.ct.Wf la false) (wb : b.ct.Wf lb false)
    (wo : out.ct.Wf lo false) (hp : out.ct.parties = a.ct.parties ∪ b.ct.parties)
    (hL : min (min la lb) lo = L) (hlt : L < C.nQ)
    {cr u : SwKey C} (hu : prm.crs.get? (-1) = some u) {rlk : RlkSet C} {rk : String → RelinKey C}
    (hrk : HasKeys rlk (a.ct.parties ∪ b.ct.parties) rk)
    {s r : String → Nega C.N ℤ} {eb ed er : String → ℕ → Nega C.N ℤ}
    (hk : RelinFor (a.ct.parties ∪ b.ct.parties) rk cr u s r eb ed er) {D T B : ℤ}
    (hD : digitMax C D) (hb : RelinBdd C (a.ct.parties ∪ b.ct.parties) s r eb ed er T B)
    (hn : RescaleBy prm.fl C.q prm.scale (prm.fl.rnd (a.scale * b.scale)) L n) (π : Sched) :
    ∃ ev' o W, ev.mulRelin prm a b rlk out π = .ok (ev', o) ∧
      o.ct.Wf (L - n) false ∧ o.ct.parties = a.ct.parties ∪ b.ct.parties ∧
      o.scale = scaleSeq prm.fl C.q L (prm.fl.rnd (a.scale * b.scale)) n ∧
      (∀ x, C.P * |Nega.coeff W x| ≤
        mulNoise C L a.ct.parties.card b.ct.parties.card D D D T B) ∧
      ∃ e : ℕ → Nega C.N ℤ,
        (∀ k < n, Nega.Bdd (e k) (((C.q (L - k) / 2 : ℕ) : ℤ) *
          (1 + (a.ct.parties ∪ b.ct.parties).card * C.N * T))) ∧
        ∀ ma mb, a.ct.Carries s L ma → b.ct.Carries s L mb →
          ∃ m', o.ct.Carries s (L - n) m' ∧
          ((∏ m ∈ range n, C.q (L - m) : ℕ) : Nega C.N ℤ) * m' = ma * mb + (W +
            ∑ k ∈ range n, ((∏ m ∈ range k, C.q (L - m) : ℕ) : Nega C.N ℤ) * e k) := by
  obtain ⟨ev', rr, e, _, hr⟩ := mulRelin_spec hC hok wa wb wo hp hu hrk hL hlt hn π
  have hS : "0" ∉ a.ct.parties ∪ b.ct.parties := by
    rw [mem_union, not_or]
    exact ⟨zero_notMem_parties _, zero_notMem_parties _⟩
  obtain ⟨W, hW, hWp⟩ := mulAt_phase hC hF wa wb le_rfl le_rfl hlt hlt hk
    (hD _ hlt) (hD _ hlt) (hD _ hlt) hb
  obtain ⟨ek, hek, hph⟩ := divs_phase hC hlt (S := a.ct.parties ∪ b.ct.parties) (fun id i =>
    ((mulInAt L L L a.ct b.ct rk u).res id i).coeff) hb.s
  have hout : ∀ i ≤ L - n, rr.phase s i = ringPhase (a.ct.parties ∪ b.ct.parties)
      (fun id i => ⟨divSeq (fun i => ((mulInAt L L L a.ct b.ct rk u).res id i).coeff) L n i⟩) s i :=
    fun i hi => CtIs.phase (F := fun id i => ⟨divSeq (fun i =>
      ((mulInAt L L L a.ct b.ct rk u).res id i).coeff) L n i⟩) hS hr s hi
  refine ⟨ev', _, W, e, hr.toWf (mem_insert_self _ _), hr.parties hS, rfl, hW, ek,
    fun k _ => hek k, fun ma mb hma hmb => ?_⟩
  obtain ⟨m', h1, h2⟩ := (hph n hn.le).2 (ma * mb + W) fun i hi => by
    rw [map_add, map_mul, ← hma i hi, ← hmb i hi, ← hWp i hi]
  exact ⟨m', fun i hi => (hout i hi).trans (h2 i hi), by rw [h1, add_assoc]⟩

end MK
