import Verif.Props.Heap
import Verif.Props.ExCDec

/-!
# Concrete cases for C57

A client that encrypts twice, adds the ciphertexts, changes the scale of the first one in place and
multiplies the second one by a constant in place.
-/

noncomputable section

namespace MK

/-- Two encryptions, a sum, and two calls that write an existing ciphertext. -/
def exStrat (pk : PublicKey exCtx) : Strategy exCtx (Fin 4 → ℚ) := fun t _ _ _ _ =>
  match t with
  | 0 => .encNew exRnd exMsg pk
  | 1 => .encNew exRnd (fun _ => 1) pk
  | 2 => .add 0 1
  | 3 => .setScale 0 5
  | _ => .mulConst 1 (.int (-7)) 1

theorem exStrat_ok (pk : PublicKey exCtx) (t : ℕ) (vs hs rl o) : (exStrat pk t vs hs rl o).Ok := by
  unfold exStrat
  split <;> trivial

/-- In every memory: five calls on pointers return; the sum and the two later writes leave the other
ciphertexts as they were. -/
theorem exClient : ∃ pk, GenPublicKey exCrs exE (GenSecretKey exS1 "alice") = .ok pk ∧ pk.id = "alice" ∧
    ∀ h : Heap exCtx, ∃ s h' a b c, pClient exEnc exPrm (exStrat pk) (fun _ => exRev) [] 5 h =
        .ok (s, h') ∧ Mem.look s.objs h' = .ok ([⟨a, 5⟩, ⟨b, 64⟩, ⟨c, 64⟩], h') ∧
      ∃ b₀ : Ct exCtx, (∀ sec, ∀ i ≤ 3, c.phase sec i = a.phase sec i + b₀.phase sec i) ∧
        ∀ sec, ∀ i ≤ 3, b.phase sec i = (-7 : ℤ) * b₀.phase sec i := by
  obtain ⟨pk, hpk, hid, hIs⟩ := exPk
  refine ⟨pk, hpk, hid, fun h => ?_⟩
  have enc : ∀ (e : CEnc exCtx) (m : Fin 4 → ℚ), e.ptxt.len = exCtx.nQ → e.scale = exPrm.scale →
      ∃ e' a, e.EncryptMsgNew exEnc exPrm exRnd m pk = .ok (e', ⟨a, 64⟩) ∧ a.Wf 3 false ∧
        e'.ptxt.len = exCtx.nQ ∧ e'.scale = exPrm.scale := by
    intro e m h1 h2
    obtain ⟨enc', ct, w, q1, q2, q3, q4, -, q5, -⟩ := CEnc.expand_spec exCtx_good exEnc exPrm h1 h2
      (pk := pk) (o := [pk.id]) (by simp) (by rw [hid]; decide) hIs exRnd m exS2_bdd exS1_bdd exE_bdd
      exE_bdd exE_bdd
    obtain ⟨a, sc⟩ := ct
    obtain rfl : sc = 64 := q5
    refine ⟨enc', a, ?_, q4, q2, q3⟩
    rw [(C49_EncryptMsgNew exEnc exPrm _ pk exRnd m).2 (by rw [hid]; decide)]
    exact q1
  obtain ⟨e1, a, ha, wa, l1, s1⟩ := enc (CEnc.new exPrm) exMsg rfl rfl
  obtain ⟨e2, b, hb, wb, l2, s2⟩ := enc e1 (fun _ => 1) l1 s1
  have bin : BinIn exPrm Ev.new (⟨a, 64⟩ : CCt exCtx) ⟨b, 64⟩ 3 3 :=
    ⟨Ev.new_ok, wa, wb, by decide, by decide, Fl.exact_ok, exAlign_eq _, exAlign_eq _⟩
  obtain ⟨ev, c, hc, pc⟩ := C11_AddNew exCtx_good bin rfl exRev
  obtain ⟨ev', c', hc', -, -, -, sc⟩ := (C13_metadata exCtx_good bin exRev).1
  rw [hc] at hc'
  cases hc'
  obtain ⟨b', hb', sb, pb⟩ := C16_MultByConst_int exCtx_good (prm := exPrm) (ct0 := ⟨b, 64⟩)
    (out := ⟨b, 64⟩) (L0 := 3) (L1 := 3) Fl.exact_ok wb wb rfl (n := -7) (by norm_num)
    (Or.inl rfl) exRev
  have hv : vClient exEnc exPrm (exStrat pk) (fun _ => exRev) [] 5 =
      .ok ⟨ev, e2, CDec.new exPrm, [], [⟨a, 5⟩, b', c], [], []⟩ := by
    simp [vClient, vRun, exStrat, vStep, ha, hb, hc, hb', Word.idx]
  obtain ⟨e, hr⟩ := C57_client exEnc exPrm (exStrat_ok pk) (fun _ => exRev) [] 5 h
  cases hp : pClient exEnc exPrm (exStrat pk) (fun _ => exRev) [] 5 h with
  | error p => rw [e p, hv] at hp; cases hp
  | ok r =>
    obtain ⟨s, h'⟩ := r
    obtain ⟨v, q, q', -⟩ := hr s h' hp
    rw [hv] at q
    cases q
    refine ⟨s, h', a, b'.ct, c.ct, rfl, ?_, b, ?_, ?_⟩
    · rw [q']
      obtain ⟨b1, b2⟩ := b'
      obtain ⟨c1, c2⟩ := c
      obtain rfl : b2 = 64 := sb
      obtain rfl : c2 = 64 := by simpa using sc
      rfl
    · exact pc
    · exact pb

/-- The fifth call of that client multiplies its second ciphertext in place; the others stay. -/
example : ∃ pk, ∀ h : Heap exCtx, ∃ s h1 s' h2 x y z,
    pClient exEnc exPrm (exStrat pk) (fun _ => exRev) [] 4 h = .ok (s, h1) ∧
    pStep exEnc exPrm (.mulConst 1 (.int (-7)) 1) exRev s h1 = .ok (s', h2) ∧
    s.objs = [x, y, z] ∧ h2.view x = h1.view x ∧ h2.view z = h1.view z := by
  obtain ⟨pk, -, -, hr⟩ := exClient
  refine ⟨pk, fun h => ?_⟩
  obtain ⟨s', h2, a, b, c, hp, hl, -⟩ := hr h
  obtain ⟨ev, h0, he, hp⟩ := Mem.bind_ok hp
  obtain ⟨s, h1, hs, hp⟩ := Mem.bind_ok hp
  obtain ⟨vs, h3, hlk, hp⟩ := Mem.bind_ok hp
  cases hlk
  have run : pClient exEnc exPrm (exStrat pk) (fun _ => exRev) [] 4 h = .ok (s, h1) := by
    show (Mem.newEvaluator >>= fun ev => pRun exEnc exPrm (exStrat pk) (fun _ => exRev) 4 _) h = _
    simp only [bind, StateT.bind, he, Except.bind]
    exact hs
  obtain ⟨pre, fr⟩ := C57_frame exEnc exPrm (exStrat_ok pk) (fun _ => exRev) [] 4 run
    (c := .mulConst 1 (.int (-7)) 1) trivial exRev hp
  have len : s'.objs.length = 3 := by
    have := congrArg (fun r : Except Panic (List (CCt exCtx) × Heap exCtx) => match r with
      | .ok r => r.1.length
      | .error _ => 0) hl
    simpa [Mem.look] using this
  have eq : s'.objs = s.objs := by
    obtain ⟨_, _, -, hp⟩ := Mem.bind_ok hp
    obtain ⟨_, _, -, hp⟩ := Mem.bind_ok hp
    obtain ⟨_, _, -, hp⟩ := Mem.bind_ok hp
    cases hp
    rfl
  rw [eq] at len
  obtain ⟨x, y, z, hx⟩ := List.length_eq_three.mp len
  refine ⟨s, h1, s', h2, x, y, z, run, hp, hx, ?_, ?_⟩
  · exact fr 0 x (by rw [hx]; rfl) (by simp [Cmd.dest])
  · exact fr 2 z (by rw [hx]; rfl) (by simp [Cmd.dest])

/-- The public keys of two parties that both took the id "0": their ciphertexts do not depend on
whose key is used. -/
example : ∃ pk pk', GenPublicKey exCrs exE (GenSecretKey exS1 "0") = .ok pk ∧
    GenPublicKey exCrs exE (GenSecretKey exS2 "0") = .ok pk' ∧
    ∀ (enc : CEnc exCtx) (rnd : EncRand exCtx) (pt : RQ exCtx) (y : ℕ) (h : Heap exCtx),
      Mem.EncryptPtxt enc rnd pt 64 pk y h = Mem.EncryptPtxt enc rnd pt 64 pk' y h := by
  have key : ∀ s : Nega exCtx.N ℤ, ∃ pk, GenPublicKey exCrs exE (GenSecretKey s "0") = .ok pk ∧
      pk.id = "0" ∧ pk.value1 = ⟨(exSample 0 0).Q.copy (QP.new : QP exCtx).Q,
        (exSample 0 0).P.copy (QP.new : QP exCtx).P⟩ := by
    intro s
    unfold GenPublicKey
    have : exCrs.deref 0 = .ok (exSample 0) := by
      unfold GoMap.deref
      rw [exCrs_get 0 (by decide)]
    rw [this]
    exact ⟨_, rfl, rfl, rfl⟩
  obtain ⟨pk, h1, h2, h3⟩ := key exS1
  obtain ⟨pk', h1', h2', h3'⟩ := key exS2
  exact ⟨pk, pk', h1, h1', fun enc rnd pt y h =>
    C57_reserved_id enc rnd pt 64 h2 h2' (h3.trans h3'.symm) y h⟩

end MK
