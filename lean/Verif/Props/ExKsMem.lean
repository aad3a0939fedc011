import Verif.Props.KsMemRun
import Verif.Props.ExKeyMem

/-!
# Concrete instances for C70
-/

noncomputable section

namespace MK

open PMem

/-- A polynomial for a ciphertext component. -/
def exComp (s : String) : RQ exCtx :=
  { (RPoly.new exCtx.nQ : RQ exCtx) with row := fun i j => (s.length + i + j.val : ℕ) }

/-- Visiting orders for a product of a ciphertext of alice and one of bob. -/
def exOrdAB : MulOrd :=
  ⟨["alice", "0"], ["0", "bob"], ["alice"], ["bob"], ["alice"], ["bob"], ["bob", "0", "alice"],
    ["bob"], ["alice"]⟩

/-- Visiting orders for a square of a ciphertext of alice. -/
def exOrdAA : MulOrd :=
  ⟨["alice", "0"], ["0", "alice"], ["alice"], ["alice"], ["alice"], ["alice"], ["0", "alice"],
    ["alice"], ["alice"]⟩

/-- Two users, ciphertexts of both, and a product. -/
def exECmds : List (ECmd exCtx) :=
  [.key (.genSk exS1 "alice"), .key (.genSk exS2 "bob"),
   .key (.genRlk 0 0 (fun _ => exE) (fun _ => exE) (fun _ => exE)), .addRlk 0,
   .key (.genRlk 1 1 (fun _ => exE) (fun _ => exE) (fun _ => exE)), .addRlk 1,
   .put ["alice"] exComp, .put ["bob"] exComp, .hoist 0 ["alice"],
   .mulNew 0 1 1 1 1 ["alice", "bob"] ["alice"] ["bob"] exOrdAB]

/-- Later: a square (one hoisting pool for both operands), products without and with a hoisted
form of the caller, new keys, a conjugation, and a key of the same id once more. -/
def exECmds' : List (ECmd exCtx) :=
  [.mulNew 0 0 1 1 1 ["alice"] ["alice"] [] exOrdAA,
   .mul 0 1 1 ["alice", "bob"] exOrdAB, .mulHoisted 0 1 0 7 1 ["alice", "bob"] exOrdAB,
   .key (.genCj 0 (fun _ => exE)), .addCj 0,
   .conj 0 exCtx.lq ["alice"] ⟨["0", "alice"], ["alice"], ["alice"], ["0", "alice"]⟩,
   .key (.genRlk 0 1 (fun _ => exE) (fun _ => exE) (fun _ => exE)), .addRlk 2,
   .mulNew 2 0 1 1 1 ["alice", "bob"] ["bob", "alice"] ["alice"]
     ⟨["alice", "bob", "0"], ["0", "alice"], ["bob", "alice"], ["alice"], ["alice", "bob"],
       ["alice"], ["bob", "0", "alice"], ["alice"], ["alice", "bob"]⟩]

theorem exERunV : ∃ v v', runEV (startEV 2 exU) exECmds = .ok v ∧ v.cts.length = 3 ∧
    v.hts.length = 1 ∧ runEV v exECmds' = .ok v' ∧ v'.cts.length = 8 :=
  ⟨_, _, rfl, rfl, rfl, rfl, rfl⟩

/-- C70: both parts run on memory, the results are those of the computation on values, and the
product, the hoisted form and the keys of the first part are unchanged by the second. -/
example : ∃ st st', runEM (startEM 2 exU exPMem) exECmds = .ok st ∧ runEM st exECmds' = .ok st' ∧
    runEV (startEV 2 exU) exECmds = .ok st.read ∧ runEV st.read exECmds' = .ok st'.read ∧
    (∃ ct, st.cts[2]? = some ct ∧ st'.cts[2]? = some ct ∧ ct.read st'.m = ct.read st.m) ∧
    (∃ H, st.hts[0]? = some H ∧ st'.hts[0]? = some H ∧ H.read st'.m = H.read st.m) ∧
    ∃ k, st.k.rlks[1]? = some k ∧ st'.k.rlks[1]? = some k ∧ k.read st'.m = k.read st.m := by
  obtain ⟨v, v', hv, h1, h2, hv', h3⟩ := exERunV
  have hlen : v.k.rlks.length = 2 := by
    have : ∃ w, runEV (startEV 2 exU) exECmds = .ok w ∧ w.k.rlks.length = 2 := ⟨_, rfl, rfl⟩
    obtain ⟨w, hw, hl⟩ := this
    rw [hv] at hw
    injection hw with hw
    rw [hw]
    exact hl
  have h := C70_session 2 exU exPMem exECmds
  rw [hv] at h
  obtain ⟨st, hs, rfl, hok⟩ := h
  have h' := C70_run hok exECmds'
  rw [hv'] at h'
  obtain ⟨st', hs', rfl, _, _⟩ := h'
  obtain ⟨_, _, u3, _, _, u6, u7⟩ := C70_unchanged hs hs'
  refine ⟨st, st', hs, hs', hv, hv', ?_, ?_, ?_⟩
  · have hl : 2 < st.cts.length := by
      have : st.cts.length = 3 := by simpa [EState.read] using h1
      omega
    exact ⟨_, List.getElem?_eq_getElem hl, u6 2 _ (List.getElem?_eq_getElem hl)⟩
  · have hl : 0 < st.hts.length := by
      have : st.hts.length = 1 := by simpa [EState.read] using h2
      omega
    exact ⟨_, List.getElem?_eq_getElem hl, u7 0 _ (List.getElem?_eq_getElem hl)⟩
  · have hl : 1 < st.k.rlks.length := by
      have : st.k.rlks.length = 2 := by simpa [EState.read, KState.read] using hlen
      omega
    exact ⟨_, List.getElem?_eq_getElem hl, u3 1 _ (List.getElem?_eq_getElem hl)⟩

/-- C70: without a relinearization key the product panics on memory as on values. -/
example : ∃ p, runEM (startEM 2 exU exPMem)
    [.put ["alice"] exComp, .mul 0 0 1 ["alice"] exOrdAA] = .error p := by
  have h := C70_session 2 exU exPMem
    [.put ["alice"] exComp, .mul 0 0 1 ["alice"] exOrdAA]
  have e : ∃ p, runEV (startEV 2 exU)
    [.put ["alice"] exComp, .mul 0 0 1 ["alice"] exOrdAA] = .error p := ⟨_, rfl⟩
  obtain ⟨p, e⟩ := e
  rw [e] at h
  exact ⟨p, h⟩

/-- Scratch at 20 to 28, output at 3 and 4. -/
theorem exOutOk : OutOk ⟨20⟩ ⟨[("0", ⟨3, 0⟩), ("alice", ⟨4, 0⟩)]⟩ where
  wf := by simp [GoMap.WF, GoMap.keys]
  inj {i j p} hi hj := by
    simp only [GoMap.get?, List.lookup_cons, List.lookup_nil] at hi hj
    split at hi
    · split at hj
      · simp_all
      · split at hj
        · have := hi.trans hj.symm; simp at this
        · simp at hj
    · split at hi
      · split at hj
        · have := hi.trans hj.symm; simp at this
        · split at hj
          · simp_all
          · simp at hj
      · simp at hi
  disj {i p} hi := by
    simp only [GoMap.get?, List.lookup_cons, List.lookup_nil] at hi
    unfold KSA.Has
    split at hi
    · cases hi; decide
    · split at hi
      · cases hi; decide
      · simp at hi

/-- C70: the statement for one product, with a hoisted form for the first operand only, equal
operands, and the relinearization key at 10, 11 and 12. -/
example (m : PMem exCtx) (o : MulOrd) :
    Result ⟨20⟩ ⟨[("0", ⟨3, 0⟩), ("alice", ⟨4, 0⟩)]⟩ m
      ((KSA.read ⟨20⟩ m).MulAndRelinHoisted (readCRS ⟨[(-1, 13)]⟩ m)
        (CtA.read ⟨[("0", ⟨5, 0⟩), ("alice", ⟨6, 0⟩)]⟩ m)
        (CtA.read ⟨[("0", ⟨5, 0⟩), ("alice", ⟨6, 0⟩)]⟩ m)
        (some (HtA.read ⟨[("alice", 7)]⟩ m)) none
        (⟨readRlks ⟨[("alice", ⟨"alice", 10, 11, 12⟩)]⟩ m, GoMap.empty, GoMap.empty⟩ :
          RelinKeySet (RelinKey exCtx) (SwKey exCtx))
        (CtA.read ⟨[("0", ⟨3, 0⟩), ("alice", ⟨4, 0⟩)]⟩ m) o)
      (KSA.MulAndRelinHoistedM ⟨20⟩ ⟨[(-1, 13)]⟩ ⟨[("0", ⟨5, 0⟩), ("alice", ⟨6, 0⟩)]⟩
        ⟨[("0", ⟨5, 0⟩), ("alice", ⟨6, 0⟩)]⟩ (some ⟨[("alice", 7)]⟩) none
        ⟨[("alice", ⟨"alice", 10, 11, 12⟩)]⟩ ⟨[("0", ⟨3, 0⟩), ("alice", ⟨4, 0⟩)]⟩ o m) := by
  have hs : ∀ o : ℕ, 5 ≤ o → o < 20 →
      Safe ⟨20⟩ ⟨[("0", ⟨3, 0⟩), ("alice", ⟨4, 0⟩)]⟩ o := fun o h1 h2 =>
    ⟨fun h => absurd h.1 (by show ¬ 20 ≤ o; omega), fun i p hp h => by
      rcases List.mem_cons.mp (mem_of_get? hp) with h' | h'
      · rw [← h, (Prod.mk.inj h').2] at h1; exact absurd h1 (by decide)
      · rw [← h, (Prod.mk.inj (List.mem_singleton.mp h')).2] at h1; exact absurd h1 (by decide)⟩
  have hop : CtSafe ⟨20⟩ ⟨[("0", ⟨3, 0⟩), ("alice", ⟨4, 0⟩)]⟩
      ⟨[("0", ⟨5, 0⟩), ("alice", ⟨6, 0⟩)]⟩ := fun i p hp => by
    rcases List.mem_cons.mp (mem_of_get? hp) with h' | h'
    · rw [(Prod.mk.inj h').2]; exact hs 5 (by omega) (by omega)
    · rw [(Prod.mk.inj (List.mem_singleton.mp h')).2]; exact hs 6 (by omega) (by omega)
  refine C70_mulHoisted (d0 := some ⟨[("alice", 7)]⟩) (d1 := none) m _ o exOutOk hop hop
    ?_ (fun _ h => by cases h) ?_ ?_ rfl
  · intro H hH i o ho
    cases hH
    rw [(Prod.mk.inj (List.mem_singleton.mp (mem_of_get? ho))).2]
    exact hs 7 (by omega) (by omega)
  · intro i o ho
    rw [(Prod.mk.inj (List.mem_singleton.mp (mem_of_get? ho))).2]
    exact hs 13 (by omega) (by omega)
  · intro i k hk
    rw [(Prod.mk.inj (List.mem_singleton.mp (mem_of_get? hk))).2]
    exact ⟨hs 10 (by omega) (by omega), hs 11 (by omega) (by omega), hs 12 (by omega) (by omega)⟩

end MK
