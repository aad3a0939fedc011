import Verif.Props.EncMemRun
import Verif.Props.ExKsMem

/-!
# Concrete instances for C71
-/

noncomputable section

namespace MK

open PMem

/-- What an encoder could write. -/
def exEncF (x : RQ exCtx) : RQ exCtx :=
  { x with row := fun i j => (7 + i + 3 * j.val : ℕ) }

/-- Two users with secret keys, a public key of alice; both secret keys in the set. -/
def exDCmds : List (ECmd exCtx) :=
  [.key (.genSk exS1 "alice"), .key (.genSk exS2 "bob"), .key (.genPk 0 exE), .addSk 1, .addSk 0]

/-- Between encryption and decryption: another encryption of the same user over the same pools, a
relinearization key, a square of the first ciphertext, a copy, a partial decryption of the copy and
a decryption. -/
def exDCmds' : List (ECmd exCtx) :=
  [.enc id 0 1 ["alice"] exS1 exE exE,
   .key (.genRlk 0 0 (fun _ => exE) (fun _ => exE) (fun _ => exE)), .addRlk 0,
   .mulNew 1 1 1 1 1 ["alice"] ["alice"] [] exOrdAA,
   .copy 0 ["bob", "0", "alice"], .pdec 0 1 ["0", "alice", "bob"],
   .dec 1 ["alice", "0"] ["alice", "0"] ["0", "alice"] ["alice", "bob"]]

theorem exDRunV : ∃ v v1 v2, runEV (startEV 2 exU) exDCmds = .ok v ∧ v.k.pks.length = 1 ∧
    v.k.pks.map PublicKey.id = ["alice"] ∧ v.cts = [] ∧
    ECmd.runV v (.enc exEncF 0 1 ["alice", "bob"] exS2 exE exE) = .ok v1 ∧
    runEV v1 exDCmds' = .ok v2 ∧ v2.k.sks.map SecretKey.id = ["alice", "bob"] ∧
    v2.skSet.value.keys = ["bob", "alice"] ∧ v2.cts.length = 5 ∧ v2.outs.length = 1 ∧
    v2.ed.dpool.level = 1 :=
  ⟨_, _, _, rfl, rfl, rfl, rfl, rfl, rfl, rfl, rfl, rfl, rfl, rfl⟩

/-- C71: the hypotheses of the round trip hold for the two sessions, and the ciphertext for alice
and bob decrypts to the encoded plaintext plus a noise of at most 18 at both levels. -/
example : ∃ st st1 st2 st3 w pt,
    runEM (startEM 2 exU exPMem) exDCmds = .ok st ∧
    ECmd.runM st (.enc exEncF 0 1 ["alice", "bob"] exS2 exE exE) = .ok st1 ∧
    runEM st1 exDCmds' = .ok st2 ∧
    ECmd.runM st2 (.dec 0 ["bob", "0", "alice"] ["0", "alice", "bob"] ["alice", "bob", "0"]
      ["alice", "bob"]) = .ok st3 ∧
    st3.outs = st2.outs ++ [pt] ∧ Nega.Bdd w 18 ∧
    ∀ j ≤ 1, pt.val exCtx.nttQ j =
      (exEncF (st.m.q st.ed.ptxt)).val exCtx.nttQ j + Nega.red (exCtx.q j) w := by
  obtain ⟨v, v1, v2, hv, hn, hpid, hc0, hv1, hv2, hids, hks, -, -, hlev⟩ := exDRunV
  have h := C70_session 2 exU exPMem exDCmds
  rw [hv] at h
  obtain ⟨st, hs, rfl, hok⟩ := h
  have hlen : st.k.pks.length = 1 := by simpa [EState.read, KState.read] using hn
  have hi : st.k.pks[0]? = some st.k.pks[0] := List.getElem?_eq_getElem (by omega)
  have hpk : (st.k.pks[0]).id = "alice" := by
    have : (st.k.pks.map fun k => k.id) = ["alice"] := by
      simpa [EState.read, KState.read, PkA.read, Function.comp_def] using hpid
    have h2 := congrArg (fun l => l[0]?) this
    simpa [hlen] using h2
  have hcl : st.cts.length = 0 := by
    have := congrArg List.length hc0
    simpa [EState.read] using this
  obtain ⟨st1, w, r1, hw, hrt⟩ := C71_round_trip exCtx_good (B := 2) (l := exDCmds) (by
      intro c hc
      simp only [exDCmds, List.mem_cons, List.not_mem_nil, or_false] at hc
      rcases hc with rfl | rfl | rfl | rfl | rfl
      · exact ⟨exCmds_small (.genSk exS1 "alice") (by simp [exCmds]), exS1_bdd⟩
      · exact ⟨exCmds_small (.genSk exS2 "bob") (by simp [exCmds]), exS2_bdd⟩
      · exact ⟨exCmds_small (.genPk 0 exE) (by simp [exCmds]), exE_bdd⟩
      · trivial
      · trivial) hs hi (L := 1) (by decide) (ids := ["alice", "bob"]) (by rw [hpk]; simp)
    (by decide) exEncF exS2_bdd exE_bdd exE_bdd
  have hst := C70_step hok (.enc exEncF 0 1 ["alice", "bob"] exS2 exE exE)
  rw [hv1, r1] at hst
  obtain ⟨hr, ok1, -⟩ := hst.of_ok
  injection hr with hr
  subst hr
  have hrun := C70_run ok1 exDCmds'
  rw [hv2] at hrun
  obtain ⟨st2, hs2, rfl, ok2, -⟩ := hrun.of_val
  have hids2 : (st2.k.sks.map fun k => k.id) = ["alice", "bob"] := by
    simpa [EState.read, KState.read, SkA.read, Function.comp_def] using hids
  have hks2 : st2.skSet.value.keys = ["bob", "alice"] := by
    have : (GoMap.mapVals (fun _ k => SkA.read k st2.m) st2.skSet.value).keys = _ := hks
    rwa [GoMap.keys_mapVals] at this
  have key := hrt exDCmds' st2 (by
      intro c hc
      simp only [exDCmds', List.mem_cons, List.not_mem_nil, or_false] at hc
      rcases hc with rfl | rfl | rfl | rfl | rfl | rfl | rfl <;> trivial) hs2
    (fun k hk k' hk' he => List.inj_on_of_nodup_map (by rw [hids2]; decide) hk hk' he)
    (fun id hid => by
      rw [GoMap.has_iff, hks2]
      simp only [List.mem_cons, List.not_mem_nil, or_false] at hid ⊢
      exact hid.symm)
    ["bob", "0", "alice"] ["0", "alice", "bob"] ["alice", "bob", "0"] ["alice", "bob"]
    (by
      rintro o (rfl | rfl | rfl) <;> refine ⟨by decide, fun k => ?_⟩ <;> simp <;> tauto)
    (by
      show List.Perm _ _
      rw [hks2]
      decide)
  obtain ⟨st3, pt, d1, d2, -, d4⟩ := key
  rw [hcl] at d1
  refine ⟨st, st1, st2, st3, w, pt, hs, r1, hs2, d1, d2, ?_, fun j hj => d4 j ?_⟩
  · simpa [exCtx] using hw
  · have e1 : (st2.m.q st2.ed.dpool).level = 1 := hlev
    have e2 : (exEncF (st.m.q st.ed.ptxt)).level = exCtx.nQ - 1 := by
      have : ∃ z, runEV (startEV 2 exU) exDCmds = .ok z ∧ z.ed.ptxt.level = exCtx.nQ - 1 := ⟨_, rfl, rfl⟩
      obtain ⟨z, z1, z2⟩ := this
      rw [hv] at z1
      injection z1 with z1
      subst z1
      exact z2
    rw [e1, e2]
    have : 2 ≤ exCtx.nQ := by decide
    omega

end MK
