import Verif.Props.KeyMemRun
import Verif.Props.ExKeys

/-!
# Concrete instances for C69
-/

noncomputable section

namespace MK

open PMem

/-- A memory that already holds three objects. -/
def exPMem : PMem exCtx := ⟨fun p => exSample p.o p.k, 3⟩

/-- Uniform samples for the CRS. -/
def exU (idx : ℤ) : ℕ → QP exCtx := exSample idx

/-- Two users, with `r = sk` for the second one (the pointers are equal), and a CRS vector added
in between. -/
def exCmds : List (KCmd exCtx) :=
  [.genSk exS1 "alice", .genSk exS2 "alice", .genPk 0 exE,
   .genRlk 0 1 (fun _ => exE) (fun _ => exE) (fun _ => exE), .genCj 0 (fun _ => exE),
   .addCRS 3 (exU 3), .addCRS 0 (exU 7), .genSk exS2 "bob",
   .genRlk 2 2 (fun _ => exE) (fun _ => exE) (fun _ => exE), .genPk 2 exE, .genPk 9 exE]

theorem exCmds_small : ∀ c ∈ exCmds, c.SmallSamples := by
  intro c hc
  simp only [exCmds, List.mem_cons, List.not_mem_nil, or_false] at hc
  rcases hc with rfl | rfl | rfl | rfl | rfl | rfl | rfl | rfl | rfl | rfl | rfl
  · exact exS1_small
  · exact exS2_small
  · exact exE_small
  · exact fun _ => ⟨exE_small, exE_small, exE_small⟩
  · exact fun _ => exE_small
  · trivial
  · trivial
  · exact exS2_small
  · exact fun _ => ⟨exE_small, exE_small, exE_small⟩
  · exact exE_small
  · exact exE_small

theorem exRunV : ∃ v, runV (startV 2 exU) exCmds = .ok v ∧ v.sks.length = 3 ∧
    v.pks.length = 2 ∧ v.rlks.length = 2 ∧ v.cjs.length = 1 ∧
    v.rlks[1]?.map RelinKey.id = some "bob" := ⟨_, rfl, rfl, rfl, rfl, rfl, rfl⟩

/-- C69: the run on memory succeeds, all its keys are in distinct objects and satisfy their
equations. -/
theorem exRunM : ∃ st, runM (startM 2 exU exPMem) exCmds = .ok st ∧ st.Ok ∧
    st.read.Sound (CRSOf 2 exU exCmds) ∧
    st.sks.length = 3 ∧ st.pks.length = 2 ∧ st.rlks.length = 2 ∧ st.cjs.length = 1 := by
  obtain ⟨v, hv, h1, h2, h3, h4, h5⟩ := exRunV
  have h := C69_session 2 exU exPMem exCmds
  rw [hv] at h
  obtain ⟨st, hs, rfl, hok⟩ := h
  refine ⟨st, hs, hok, C69_sound exCtx_good (by decide) exCmds_small hs, ?_, ?_, ?_, ?_⟩
  · simpa [KState.read] using h1
  · simpa [KState.read] using h2
  · simpa [KState.read] using h3
  · simpa [KState.read] using h4

/-- C69: continuing with a rotation key leaves alice's relinearisation key as it is. -/
example : ∃ st st' k, runM (startM 2 exU exPMem) exCmds = .ok st ∧
    runM st [.genRot 0 1 (fun _ => exE)] = .ok st' ∧ st'.rots.length = st.rots.length + 1 ∧
    st.rlks[0]? = some k ∧ st'.rlks[0]? = some k ∧ k.read st'.m = k.read st.m := by
  obtain ⟨st, hs, hok, hso, h1, h2, h3, h4⟩ := exRunM
  have h := C69_run hok [.genRot 0 1 (fun _ => exE)]
  have hv : ∃ v, runV st.read [.genRot 0 1 (fun _ => exE)] = .ok v ∧
      v.rots.length = st.read.rots.length + 1 := by
    have hsk : ∃ sk, st.read.sks[0]? = some sk := by
      refine ⟨_, List.getElem?_eq_getElem ?_⟩
      simp [KState.read, h1]
    obtain ⟨sk, hsk⟩ := hsk
    obtain ⟨s, _, hsks⟩ := hso.sks sk (List.mem_of_getElem? hsk)
    have hcrs : st.read.crs.get? 1 = some (crsVec (exU 1)) := by
      have h := C69_session 2 exU exPMem exCmds
      have hv : ∃ v, runV (startV 2 exU) exCmds = .ok v ∧
        v.crs.get? 1 = some (crsVec (exU 1)) := ⟨_, rfl, rfl⟩
      obtain ⟨v, hv, hc⟩ := hv
      rw [hv] at h
      obtain ⟨st1, hs1, hr1, _⟩ := h
      rw [hs] at hs1
      injection hs1 with hs1
      rw [hs1, hr1]
      exact hc
    have hn : normRot (exCtx.N / 2) 1 = 1 := by rw [normRot]; decide
    obtain ⟨rk, hrk, _⟩ := C34_rotation_key exCtx_good (crs := st.read.crs) (rot := 1)
      (by unfold GoMap.has; rw [hcrs]; rfl) (by rw [hn]; exact hcrs) hsks (e := fun _ => exE)
      (fun _ => exE_small) (RPoly.new 0)
    refine ⟨{ st.read with rots := st.read.rots ++ [rk] }, ?_, by simp⟩
    simp only [runV, KCmd.runV, hsk, hrk]
    rfl
  obtain ⟨v, hv, hlen⟩ := hv
  rw [hv] at h
  obtain ⟨st', hs', hr', _, _⟩ := h
  have hk : ∃ k, st.rlks[0]? = some k := ⟨_, List.getElem?_eq_getElem (by omega)⟩
  obtain ⟨k, hk⟩ := hk
  obtain ⟨_, _, hrl, _⟩ := C69_unchanged hs hs'
  refine ⟨st, st', k, hs, hs', ?_, hk, hrl 0 k hk⟩
  rw [← hr'] at hlen
  simpa [KState.read] using hlen

/-- C69: a rotation index without CRS panics on memory with the message of the program. -/
example : runM (startM 2 exU exPMem) [.genSk exS1 "alice", .genRot 0 5 (fun _ => exE)] =
    .error (.msg "Cannot GenRotationKey: CRS for given rot idx is not generated") :=
  C69_session 2 exU exPMem [.genSk exS1 "alice", .genRot 0 5 (fun _ => exE)]

/-- C69: the hypotheses of the theorems for single keys after `NewKeyGenerator`, for a secret
key in the memory that existed before. -/
example (eb ed ev : ℕ → Nega exCtx.N ℤ) : ∃ k m',
    GenRelinearizationKeyM (startM 2 exU exPMem).kg eb ed ev ⟨"carol", ⟨2, 5⟩⟩ ⟨"carol", ⟨1, 0⟩⟩
      (startM 2 exU exPMem).m = .ok (k, m') ∧ k.id = "carol" ∧
      m'.val ⟨2, 5⟩ = exSample 2 5 ∧ m'.val ⟨1, 0⟩ = exSample 1 0 := by
  obtain ⟨hw, hc, _, hold⟩ := C69_start 2 exU exPMem
  have own : ∀ o < 3, (startM 2 exU exPMem).kg.Owns (startM 2 exU exPMem).m o := by
    intro o ho
    have h1 : (startM 2 exU exPMem).m.next = 11 := rfl
    have h2 : (startM 2 exU exPMem).kg.poolQ.o = 9 := rfl
    have h3 : (startM 2 exU exPMem).kg.poolQP.o = 10 := rfl
    refine ⟨?_, ?_, ?_⟩ <;> omega
  have h := C69_relin_key hw eb ed ev (sk := ⟨"carol", ⟨2, 5⟩⟩) (r := ⟨"carol", ⟨1, 0⟩⟩)
    (own 2 (by omega)) (own 1 (by omega)) (RPoly.new 0) QP.new
  rw [hc] at h
  obtain ⟨k, m', h1, h2, h3, _⟩ := h
  refine ⟨k, m', h1, congrArg RelinKey.id h2, ?_, ?_⟩
  · rw [h3.2 ⟨2, 5⟩ (own 2 (by omega)), hold ⟨2, 5⟩ (by decide)]
    rfl
  · rw [h3.2 ⟨1, 0⟩ (own 1 (by omega)), hold ⟨1, 0⟩ (by decide)]
    rfl

end MK
