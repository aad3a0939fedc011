import Verif.KsMemRun
import Verif.Props.EncMem

/-!
# C70: sessions with key generation and key switching on one memory
-/

noncomputable section

namespace MK

open PMem

variable {C : Ctx}

/-! ## The user on values -/

/-- The user's state on values. -/
structure EVal (C : Ctx) where
  k : KVal C
  ks : KS C
  rlk : RelinKeySet (RelinKey C) (SwKey C)
  rot : RotationKeySet (RotKey C)
  cj : KeySet (ConjKey C)
  cts : List (Ct C)
  hts : List (HoistedCt C)
  ed : EDVal C
  skSet : KeySet (SecretKey C)
  outs : List (RQ C)

/-- A new ciphertext computed by `f`. -/
def EVal.evalV (st : EVal C) (level : ℕ) (ids : List String)
    (f : Ct C → KS C → Go (KS C × Ct C)) : Go (EVal C) := do
  let (ks, ct) ← f (Ct.new level ids) st.ks
  return { st with ks := ks, cts := st.cts ++ [ct] }

/-- The loop of `HoistedForm` on values (the body of `Ev.HoistedForm`). -/
def hoistLoopV (ct : Ct C) (o : List String) (s : KS C × HoistedCt C) : Go (KS C × HoistedCt C) :=
  forEach o (fun id (s : KS C × HoistedCt C) => do
    let H := s.2.set id SwKey.new
    let level ← ct.Level
    let a ← ct.value.deref id
    let ad ← H.deref id
    let (ks, ad) := s.1.Decompose level a ad
    return (ks, H.set id ad)) s

/-- One command with the functions of mkrlwe on values. -/
def ECmd.runV (st : EVal C) : ECmd C → Go (EVal C)
  | .key c => do
    let k ← c.runV st.k
    return { st with k := k }
  | .addRlk i =>
    match st.k.rlks[i]? with
    | none => .ok st
    | some k => .ok { st with rlk := st.rlk.add RelinKey.id SwKey.new k }
  | .addRot i =>
    match st.k.rots[i]? with
    | none => .ok st
    | some k => .ok { st with rot := st.rot.add RotKey.id RotKey.rotIdx k }
  | .addCj i =>
    match st.k.cjs[i]? with
    | none => .ok st
    | some k => .ok { st with cj := st.cj.add ConjKey.id k }
  | .put ids v => .ok { st with cts := st.cts ++ [ctFromV v ids] }
  | .hoist i o =>
    match st.cts[i]? with
    | none => .ok st
    | some ct => do
      let (ks, H) ← hoistLoopV ct o (st.ks, GoMap.empty)
      return { st with ks := ks, hts := st.hts ++ [H] }
  | .mulNew i j level l0 l1 ids o0 o1 o =>
    match st.cts[i]?, st.cts[j]? with
    | some a, some b =>
      if i = j then do
        let (ks, p0) ← hoistInto l0 a o0 (st.ks, st.rlk.pool0)
        ({ st with ks := ks, rlk := { st.rlk with pool0 := p0 } } : EVal C).evalV level ids
          fun out ks => ks.MulAndRelinHoisted st.k.crs a b (some p0) (some p0)
            { st.rlk with pool0 := p0 } out o
      else do
        let (ks, p0) ← hoistInto l0 a o0 (st.ks, st.rlk.pool0)
        let (ks, p1) ← hoistInto l1 b o1 (ks, st.rlk.pool1)
        ({ st with ks := ks, rlk := { st.rlk with pool0 := p0, pool1 := p1 } } : EVal C).evalV
          level ids
          fun out ks => ks.MulAndRelinHoisted st.k.crs a b (some p0) (some p1)
            { st.rlk with pool0 := p0, pool1 := p1 } out o
    | _, _ => .ok st
  | .mul i j level ids o =>
    match st.cts[i]?, st.cts[j]? with
    | some a, some b => st.evalV level ids fun out ks =>
        ks.MulAndRelin st.k.crs a b st.rlk out o
    | _, _ => .ok st
  | .mulHoisted i j h0 h1 level ids o =>
    match st.cts[i]?, st.cts[j]? with
    | some a, some b => st.evalV level ids fun out ks =>
        ks.MulAndRelinHoisted st.k.crs a b st.hts[h0]? st.hts[h1]? st.rlk out o
    | _, _ => .ok st
  | .rot i r level ids o =>
    match st.cts[i]? with
    | none => .ok st
    | some a => st.evalV level ids fun out ks => ks.Rotate st.k.crs a r st.rot out o
  | .rotHoisted i h r level ids o =>
    match st.cts[i]?, st.hts[h]? with
    | some a, some H => st.evalV level ids fun out ks =>
        ks.RotateHoisted st.k.crs a r H st.rot out o
    | _, _ => .ok st
  | .conj i level ids o =>
    match st.cts[i]? with
    | none => .ok st
    | some a => st.evalV level ids fun out ks => ks.Conjugate st.k.crs a st.cj out o
  | .addSk i =>
    match st.k.sks[i]? with
    | none => .ok st
    | some k => .ok { st with skSet := st.skSet.add SecretKey.id k }
  | .enc f i level ids u e0 e1 =>
    match st.k.pks[i]? with
    | none => .ok st
    | some pk => do
      let (ed, ct) ← encMsgV st.ed f u e0 e1 pk level ids
      return { st with ed := ed, cts := st.cts ++ [ct] }
  | .copy i o =>
    match st.cts[i]? with
    | none => .ok st
    | some ct => do
      let ct ← ct.CopyNew o
      return { st with cts := st.cts ++ [ct] }
  | .pdec i k o =>
    match st.cts[i]?, st.k.sks[k]? with
    | some ct, some sk => do
      let ct ← ct.CopyNew o
      let ct ← PartialDecrypt ct sk
      return { st with cts := st.cts ++ [ct] }
    | _, _ => .ok st
  | .dec i oA oC oI oS =>
    match st.cts[i]? with
    | none => .ok st
    | some ct => do
      let pt ← cdecryptV st.ed.dpool ct st.skSet oA oC oI oS
      return { st with ed := { st.ed with dpool := pt }, outs := st.outs ++ [pt] }

/-- A sequence of commands on values. -/
def runEV (st : EVal C) : List (ECmd C) → Go (EVal C)
  | [] => .ok st
  | c :: l => do
    let st ← c.runV st
    runEV st l

/-- The values a user on memory holds. -/
def EState.read (st : EState C) : EVal C where
  k := st.k.read
  ks := st.ka.read st.m
  rlk := ⟨readRlks st.rlk.value st.m, HtA.read st.rlk.pool0 st.m, HtA.read st.rlk.pool1 st.m⟩
  rot := readRots st.rot st.m
  cj := readCjs st.cj st.m
  cts := st.cts.map fun ct => ct.read st.m
  hts := st.hts.map fun H => H.read st.m
  ed := st.ed.read st.m
  skSet := readSks st.skSet st.m
  outs := st.outs

/-! ## Order in the memory -/

/-- The two hoisting pools of the key set. -/
def EState.pool (st : EState C) (b : Bool) : HtA := if b then st.rlk.pool1 else st.rlk.pool0

/-- An object of the user that is neither scratch of the key generator, of the key switcher, of the
encryptor or of the decryptor, nor in a hoisting pool. -/
def EState.Free (st : EState C) (o : ℕ) : Prop :=
  st.k.kg.Owns st.m o ∧ ¬ st.ka.Has o ∧
    (∀ (b : Bool) (i : String), (st.pool b).get? i ≠ some o) ∧ ¬ st.ed.Has o

/-- Keys, reference string, ciphertexts and hoisted forms are in such objects; the objects in the
hoisting pools are pairwise distinct. -/
structure EState.Ok (st : EState C) : Prop where
  key : st.k.Ok
  ka : ∀ o, st.ka.Has o → st.k.kg.Owns st.m o
  objs : ∀ o ∈ st.k.objs, st.Free o
  crs : ∀ e ∈ st.k.kg.crs.entries, st.Free e.2
  rlk : ∀ e ∈ st.rlk.value.entries, e.2 ∈ st.k.rlks
  rot : ∀ e ∈ st.rot.value.entries, ∀ e' ∈ e.2.entries, e'.2 ∈ st.k.rots
  cj : ∀ e ∈ st.cj.value.entries, e.2 ∈ st.k.cjs
  cts : ∀ ct ∈ st.cts, ct.WF ∧ ∀ (i : String) (p : Ptr), ct.get? i = some p → st.Free p.o
  hts : ∀ H ∈ st.hts, H.WF ∧ ∀ (i : String) (o : ℕ), H.get? i = some o → st.Free o
  pool : ∀ (b : Bool) (i : String) (o : ℕ), (st.pool b).get? i = some o →
    st.k.kg.Owns st.m o ∧ ¬ st.ka.Has o
  poolWF : ∀ b, (st.pool b).WF
  poolInj : ∀ (b b' : Bool) (i i' : String) (o : ℕ), (st.pool b).get? i = some o →
    (st.pool b').get? i' = some o → b = b' ∧ i = i'
  ed : ∀ o, st.ed.Has o → st.k.kg.Owns st.m o ∧ ¬ st.ka.Has o ∧
    ∀ (b : Bool) (i : String), (st.pool b).get? i ≠ some o
  sk : ∀ e ∈ st.skSet.value.entries, e.2 ∈ st.k.sks
  skWF : st.skSet.value.WF
  skId : ∀ e ∈ st.skSet.value.entries, e.2.id = e.1

/-- `st'` is a later state of `st`: what was obtained earlier is still held, in the same
positions, and it is unchanged. -/
structure EState.Later (st st' : EState C) : Prop where
  ka : st'.ka = st.ka
  sks : st.k.sks <+: st'.k.sks
  pks : st.k.pks <+: st'.k.pks
  rlks : st.k.rlks <+: st'.k.rlks
  rots : st.k.rots <+: st'.k.rots
  cjs : st.k.cjs <+: st'.k.cjs
  cts : st.cts <+: st'.cts
  hts : st.hts <+: st'.hts
  ed : st'.ed = st.ed
  outs : st.outs <+: st'.outs
  free : ∀ o, st.Free o → st'.Free o
  same : ∀ p : Ptr, st.Free p.o → st'.m.val p = st.m.val p

namespace EState

theorem Later.refl (st : EState C) : st.Later st :=
  ⟨rfl, List.prefix_rfl, List.prefix_rfl, List.prefix_rfl, List.prefix_rfl, List.prefix_rfl,
    List.prefix_rfl, List.prefix_rfl, rfl, List.prefix_rfl, fun _ h => h, fun _ _ => rfl⟩

theorem Later.trans {a b c : EState C} (h : a.Later b) (h' : b.Later c) : a.Later c where
  ka := h'.ka.trans h.ka
  sks := h.sks.trans h'.sks
  pks := h.pks.trans h'.pks
  rlks := h.rlks.trans h'.rlks
  rots := h.rots.trans h'.rots
  cjs := h.cjs.trans h'.cjs
  cts := h.cts.trans h'.cts
  hts := h.hts.trans h'.hts
  ed := h'.ed.trans h.ed
  outs := h.outs.trans h'.outs
  free o ho := h'.free o (h.free o ho)
  same p hp := (h'.same p (h.free _ hp)).trans (h.same p hp)

theorem Free.setM {st : EState C} {m' : PMem C} (hn : st.m.next ≤ m'.next) {o : ℕ}
    (h : st.Free o) : (st.setM m').Free o :=
  ⟨⟨h.1.1.trans_le hn, h.1.2⟩, h.2⟩

/-- Only the memory changes, and no allocation is lost. -/
theorem Ok.setM {st : EState C} (h : st.Ok) {m' : PMem C} (hn : st.m.next ≤ m'.next) :
    (st.setM m').Ok where
  key := ⟨h.key.wf.mono hn, fun o ho => (h.key.owns o ho).mono hn, h.key.nodup⟩
  ka o ho := (h.ka o ho).mono hn
  objs o ho := (h.objs o ho).setM hn
  crs e he := (h.crs e he).setM hn
  rlk := h.rlk
  rot := h.rot
  cj := h.cj
  cts ct hct := ⟨(h.cts ct hct).1, fun i p hp => ((h.cts ct hct).2 i p hp).setM hn⟩
  hts H hH := ⟨(h.hts H hH).1, fun i o ho => ((h.hts H hH).2 i o ho).setM hn⟩
  pool b i o ho := ⟨(h.pool b i o ho).1.mono hn, (h.pool b i o ho).2⟩
  poolWF := h.poolWF
  poolInj := h.poolInj
  ed o ho := ⟨(h.ed o ho).1.mono hn, (h.ed o ho).2⟩
  sk := h.sk
  skWF := h.skWF
  skId := h.skId

theorem Later.setM {st : EState C} {m' : PMem C} (hn : st.m.next ≤ m'.next)
    (hs : ∀ p : Ptr, st.Free p.o → m'.val p = st.m.val p) : st.Later (st.setM m') :=
  ⟨rfl, List.prefix_rfl, List.prefix_rfl, List.prefix_rfl, List.prefix_rfl, List.prefix_rfl,
    List.prefix_rfl, List.prefix_rfl, rfl, List.prefix_rfl, fun _ h => h.setM hn, hs⟩

section frame

variable {st : EState C} (h : st.Ok) {m' : PMem C}
  (hs : ∀ p : Ptr, st.Free p.o → m'.val p = st.m.val p)
include h hs

omit h in
theorem frame_obj {o : ℕ} (ho : st.Free o) : m'.obj o = st.m.obj o :=
  funext fun k => hs ⟨o, k⟩ ho

theorem frame_crs : readCRS st.k.kg.crs m' = readCRS st.k.kg.crs st.m :=
  mapVals_congr fun e he => frame_obj hs (h.crs e he)

theorem frame_rlk {k : RlkA} (hk : k ∈ st.k.rlks) : k.read m' = k.read st.m := by
  unfold RlkA.read
  rw [frame_obj hs (h.objs _ (KState.mem_objs_rlk hk (by simp [RlkA.objs]))),
    frame_obj hs (h.objs _ (KState.mem_objs_rlk hk (by simp [RlkA.objs]))),
    frame_obj hs (h.objs _ (KState.mem_objs_rlk hk (by simp [RlkA.objs])))]

theorem frame_rot {k : RotA} (hk : k ∈ st.k.rots) : k.read m' = k.read st.m := by
  unfold RotA.read
  rw [frame_obj hs (h.objs _ (KState.mem_objs_rot hk (by simp [RotA.objs])))]

theorem frame_cj {k : CjA} (hk : k ∈ st.k.cjs) : k.read m' = k.read st.m := by
  unfold CjA.read
  rw [frame_obj hs (h.objs _ (KState.mem_objs_cj hk (by simp [CjA.objs])))]

theorem frame_key : (st.setM m').k.read = st.k.read := by
  unfold KState.read setM
  congr 1
  · exact frame_crs h hs
  · refine List.map_congr_left fun k hm => ?_
    unfold SkA.read
    rw [hs _ (h.objs _ (KState.mem_objs_sk hm (by simp [SkA.objs])))]
    rfl
  · refine List.map_congr_left fun k hm => ?_
    unfold PkA.read
    rw [hs _ (h.objs _ (KState.mem_objs_pk hm (by simp [PkA.objs]))),
      hs _ (h.objs _ (KState.mem_objs_pk hm (by simp [PkA.objs])))]
    rfl
  · exact List.map_congr_left fun k hm => frame_rlk h hs hm
  · exact List.map_congr_left fun k hm => frame_rot h hs hm
  · exact List.map_congr_left fun k hm => frame_cj h hs hm

theorem frame_rlks : readRlks st.rlk.value m' = readRlks st.rlk.value st.m :=
  mapVals_congr fun e he => frame_rlk h hs (h.rlk e he)

theorem frame_rots : readRots st.rot m' = readRots st.rot st.m := by
  unfold readRots
  congr 1
  exact mapVals_congr fun e he => mapVals_congr fun e' he' => frame_rot h hs (h.rot e he e' he')

theorem frame_cjs : readCjs st.cj m' = readCjs st.cj st.m := by
  unfold readCjs
  congr 1
  exact mapVals_congr fun e he => frame_cj h hs (h.cj e he)

theorem frame_ct {ct : CtA} (hct : ct ∈ st.cts) : ct.read m' = ct.read st.m := by
  unfold CtA.read
  congr 1
  refine GoMap.mapVals_congr (h.cts ct hct).1 fun i p hp => ?_
  unfold PMem.q
  rw [hs p ((h.cts ct hct).2 i p hp)]

theorem frame_ht {H : HtA} (hH : H ∈ st.hts) : H.read m' = H.read st.m :=
  GoMap.mapVals_congr (h.hts H hH).1 fun i o ho => frame_obj hs ((h.hts H hH).2 i o ho)

theorem frame_sk {k : SkA} (hk : k ∈ st.k.sks) : k.read m' = k.read st.m := by
  unfold SkA.read
  rw [hs _ (h.objs _ (KState.mem_objs_sk hk (by simp [SkA.objs])))]

theorem frame_sks : readSks st.skSet m' = readSks st.skSet st.m := by
  unfold readSks
  congr 1
  exact mapVals_congr fun e he => frame_sk h hs (h.sk e he)

/-- What the user holds after a change of the memory that spares the user's objects: only the
scratch and the hoisting pools may differ. -/
theorem read_setM : (st.setM m').read = { st.read with
    ks := st.ka.read m'
    rlk := ⟨st.read.rlk.value, HtA.read st.rlk.pool0 m', HtA.read st.rlk.pool1 m'⟩
    ed := st.ed.read m' } := by
  unfold read
  rw [frame_key h hs]
  dsimp only
  congr 1
  · show RelinKeySet.mk (readRlks st.rlk.value m') _ _ = _
    rw [frame_rlks h hs]
    rfl
  · exact frame_rots h hs
  · exact frame_cjs h hs
  · exact List.map_congr_left fun ct hct => frame_ct h hs hct
  · exact List.map_congr_left fun H hH => frame_ht h hs hH
  · exact frame_sks h hs

end frame

/-- The scratch of encryptor and decryptor is unchanged. -/
theorem read_ed {st : EState C} {m' : PMem C}
    (hs : ∀ p : Ptr, st.ed.Has p.o → m'.val p = st.m.val p) :
    st.ed.read m' = st.ed.read st.m := by
  unfold EDA.read PMem.q
  rw [hs st.ed.poolQ ⟨le_rfl, by simp [EDA.poolQ]⟩,
    hs st.ed.ptxt ⟨Nat.le_succ _, by simp [EDA.ptxt]⟩,
    hs st.ed.dpool ⟨Nat.le_add_right _ _, by simp [EDA.dpool]⟩]

/-- After an allocation nothing the user holds has changed. -/
theorem read_alloc {st : EState C} (h : st.Ok) {m' : PMem C}
    (hs : ∀ p : Ptr, p.o < st.m.next → m'.val p = st.m.val p) : (st.setM m').read = st.read := by
  rw [read_setM h fun p hp => hs p hp.1.1]
  have hobj : ∀ o, o < st.m.next → m'.obj o = st.m.obj o := fun o ho =>
    funext fun k => hs ⟨o, k⟩ ho
  have hka : st.ka.read m' = st.ka.read st.m := by
    have hb : ∀ j < 9, st.ka.base + j < st.m.next := fun j hj =>
      (h.ka _ ⟨Nat.le_add_right _ _, by omega⟩).1
    unfold KSA.read PMem.q
    rw [hs _ (hb 0 (by omega)), hs _ (hb 1 (by omega)), hs _ (hb 2 (by omega)),
      hs _ (hb 3 (by omega)), hs _ (hb 4 (by omega)), hs _ (hb 5 (by omega)),
      hobj st.ka.swk1 (hb 6 (by omega)), hobj st.ka.swk2 (hb 7 (by omega)),
      hobj st.ka.swk3 (hb 8 (by omega))]
  have hp : ∀ b, HtA.read (st.pool b) m' = HtA.read (st.pool b) st.m := fun b =>
    GoMap.mapVals_congr (h.poolWF b) fun i o ho => hobj o (h.pool b i o ho).1.1
  rw [hka, show HtA.read st.rlk.pool0 m' = _ from hp false,
    show HtA.read st.rlk.pool1 m' = _ from hp true,
    read_ed fun p hp => hs p (h.ed _ hp).1.1]
  rfl

end EState

/-- What a command on memory does, relative to the command on values. -/
def EStep (st : EState C) (x : Go (EVal C)) (y : Go (EState C)) : Prop :=
  match x with
  | .error p => y = .error p
  | .ok v => ∃ st', y = .ok st' ∧ st'.read = v ∧ st'.Ok ∧ st.Later st'

theorem EStep.refl {st : EState C} (h : st.Ok) : EStep st (.ok st.read) (.ok st) :=
  ⟨st, rfl, rfl, h, .refl st⟩

/-- A new ciphertext enters the state. -/
theorem EState.Ok.addCt {st : EState C} (h : st.Ok) {ct : CtA} (hw : ct.WF)
    (hf : ∀ (i : String) (p : Ptr), ct.get? i = some p → st.Free p.o) :
    ({ st with cts := st.cts ++ [ct] } : EState C).Ok :=
  { h with
    cts := fun c hc => by
      rcases List.mem_append.mp hc with hc | hc
      · exact h.cts c hc
      · rw [List.mem_singleton.mp hc]; exact ⟨hw, hf⟩ }

theorem EState.Later.addCt (st : EState C) (ct : CtA) :
    st.Later { st with cts := st.cts ++ [ct] } :=
  ⟨rfl, List.prefix_rfl, List.prefix_rfl, List.prefix_rfl, List.prefix_rfl, List.prefix_rfl,
    List.prefix_append _ _, List.prefix_rfl, rfl, List.prefix_rfl, fun _ h => h, fun _ _ => rfl⟩

/-- New cells are free. -/
theorem EState.Ok.newFree {st : EState C} (h : st.Ok) {m' : PMem C} {o : ℕ}
    (h1 : st.m.next ≤ o) (h2 : o < m'.next) : (st.setM m').Free o := by
  refine ⟨⟨h2, ?_, ?_⟩, fun ho => ?_, fun b i ho => ?_, fun ho => ?_⟩
  · have := h.key.wf.poolQ
    show o ≠ st.k.kg.poolQ.o
    have : st.k.kg.poolQ.o < st.m.next := this
    omega
  · have : st.k.kg.poolQP.o < st.m.next := h.key.wf.poolQP
    show o ≠ st.k.kg.poolQP.o
    omega
  · have := (h.ka o ho).1
    omega
  · have : o < st.m.next := (h.pool b i o ho).1.1
    omega
  · have : o < st.m.next := (h.ed o ho).1.1
    omega

/-- A computation with a new output. -/
theorem evalM_step {st : EState C} (h : st.Ok) (level : ℕ) (ids : List String)
    {f : CtA → PMem C → Go (PMem C)} {g : Ct C → KS C → Go (KS C × Ct C)}
    (hf : ∀ (out : CtA) (m' : PMem C), OutOk st.ka out →
      (∀ p : Ptr, st.Free p.o → m'.val p = st.m.val p) → (st.setM m').read = st.read → (∀ o, st.Free o → Safe st.ka out o) →
      (∀ b, ObjSafe st.ka out (st.pool b)) →
      Result st.ka out m' (g (out.read m') (st.ka.read m')) (f out m')) :
    EStep st (st.read.evalV level ids g) (st.evalM level ids f) := by
  obtain ⟨hn, hr⟩ := ctFromM_spec (fun _ => RPoly.new (level + 1)) ids st.m
  rw [ctFromV_new] at hr
  unfold EState.evalM EVal.evalV newCtM
  generalize hg : ctFromM (fun _ => RPoly.new (level + 1)) ids st.m = s at hn hr
  obtain ⟨out, m1⟩ := s
  dsimp only at hn hr ⊢
  have hO : OutOk st.ka out := ⟨hn.wf, hn.inj, fun {i p} hp ho => by
    have := (h.ka _ ho).1
    have := (hn.objs i p hp).1
    omega⟩
  have hsafe : ∀ o, o < st.m.next → ¬ st.ka.Has o → Safe st.ka out o := fun o h1 h2 =>
    ⟨h2, fun i p hp => by have := (hn.objs i p hp).1; omega⟩
  have hread := EState.read_alloc h hn.old
  have hres := hf out m1 hO (fun p hp => hn.old p hp.1.1) hread (fun o ho => hsafe o ho.1.1 ho.2.1)
    (fun b i o ho => hsafe o (h.pool b i o ho).1.1 (h.pool b i o ho).2)
  rw [hr, show st.ka.read m1 = st.read.ks from congrArg EVal.ks hread] at hres
  cases hx : g (Ct.new level ids) st.read.ks with
  | error e =>
    rw [hx] at hres
    cases hy : f out m1 with
    | error e' =>
      rw [hy] at hres
      rw [show e = e' from hres]
      rfl
    | ok m2 => rw [hy] at hres; exact hres.elim
  | ok s =>
    obtain ⟨ks, ct⟩ := s
    rw [hx] at hres
    cases hy : f out m1 with
    | error e' => rw [hy] at hres; exact hres.elim
    | ok m2 =>
      rw [hy] at hres
      obtain ⟨h1, h2, h3, h4⟩ := hres
      have hnext : st.m.next ≤ m2.next := by rw [h3]; exact hn.next
      have hs2 : ∀ p : Ptr, p.o < st.m.next → ¬ st.ka.Has p.o → m2.val p = st.m.val p :=
        fun p ha hb => by rw [h4 p (hsafe p.o ha hb), hn.old p ha]
      have hs : ∀ p : Ptr, st.Free p.o → m2.val p = st.m.val p := fun p hp =>
        hs2 p hp.1.1 hp.2.1
      have hok := (h.setM hnext).addCt hn.wf fun i p hp =>
        h.newFree (hn.objs i p hp).1 (by rw [h3]; exact (hn.objs i p hp).2)
      refine ⟨_, rfl, ?_, hok, (EState.Later.setM hnext hs).trans (.addCt _ _)⟩
      have hp : ∀ b, HtA.read (st.pool b) m2 = HtA.read (st.pool b) st.m := fun b =>
        GoMap.mapVals_congr (h.poolWF b) fun i o ho => funext fun k =>
          hs2 ⟨o, k⟩ (h.pool b i o ho).1.1 (h.pool b i o ho).2
      have e := EState.read_setM h hs
      rw [show HtA.read st.rlk.pool0 m2 = _ from hp false,
        show HtA.read st.rlk.pool1 m2 = _ from hp true, h1,
        EState.read_ed fun p hp => hs2 p (h.ed _ hp).1.1 (h.ed _ hp).2.1] at e
      have e' : ({ st.setM m2 with cts := st.cts ++ [out] } : EState C).read =
          { (st.setM m2).read with cts := (st.setM m2).read.cts ++ [out.read m2] } := by
        unfold EState.read
        dsimp only
        congr 1
        exact List.map_append
      rw [show (st.setM m2).cts = st.cts from rfl] at *
      rw [e', e, h2]
      rfl

/-! ## Hoisted forms -/

/-- `Decompose` into one switching key of a map. -/
theorem decompose_into {ka : KSA} {H : HtA} (hw : H.WF)
    (hi : ∀ {i j : String} {o : ℕ}, H.get? i = some o → H.get? j = some o → i = j)
    (level : ℕ) {a : Ptr} {ad : ℕ} {id : String} (m : PMem C) (hid : H.get? id = some ad)
    (hd : ∀ {i : String} {o : ℕ}, H.get? i = some o → ¬ ka.Has o) (ha : a.o ≠ ad) :
    ka.read (ka.DecomposeM level a ad m) =
        ((ka.read m).Decompose level (m.q a) (m.obj ad)).1 ∧
      H.read (ka.DecomposeM level a ad m) =
        (H.read m).set id ((ka.read m).Decompose level (m.q a) (m.obj ad)).2 ∧
      (ka.DecomposeM level a ad m).next = m.next ∧
      ∀ p : Ptr, ¬ ka.Has p.o → p.o ≠ ad → (ka.DecomposeM level a ad m).val p = m.val p := by
  have hhad := hd hid
  have hb : ad ≠ ka.base := by
    rintro rfl
    exact hhad ⟨le_rfl, by omega⟩
  rw [ka.DecomposeM_eq level m ha hb]
  refine ⟨?_, ?_, rfl, fun p hp hpa => ?_⟩
  · rw [KSA.read_setObj_of_not _ _ hhad, KSA.read_wr_poolInv, ← KS.Decompose_fst]
  · have hh : (H.read m).has id = true := by
      rw [GoMap.has_iff]
      unfold HtA.read
      rw [GoMap.keys_mapVals]
      exact GoMap.mem_keys_of_get? hid
    unfold HtA.read at hh ⊢
    unfold GoMap.set
    rw [if_pos hh]
    unfold GoMap.mapVals
    simp only [List.map_map]
    congr 1
    refine List.map_congr_left fun e he => ?_
    have hg := GoMap.get?_of_mem_entries hw he
    by_cases h1 : e.1 = id
    · have : e.2 = ad := by rw [h1, hid] at hg; exact (Option.some.inj hg).symm
      simp [h1, this]
    · have h2 : e.2 ≠ ad := fun h2 => h1 (hi (h2 ▸ hg) hid)
      have h3 : ¬ ka.Has e.2 := hd hg
      have h4 : ka.poolInv.o ≠ e.2 := by
        rintro h5
        exact h3 (h5 ▸ ⟨le_rfl, by simp [KSA.poolInv]⟩)
      simp only [Function.comp_apply, h1, if_false, Prod.mk.injEq, true_and]
      rw [PMem.obj_setObj_of_ne _ _ h2]
      dsimp only [PMem.wrQ]
      rw [PMem.obj_wr_of_ne _ _ h4]
  · rw [PMem.setObj_val_of_ne _ _ hpa, PMem.val_wrQ_of_ne]
    refine ptr_ne ?_
    rintro h5
    exact hp (h5 ▸ ⟨le_rfl, by simp [KSA.poolInv]⟩)

/-- The memory `m`, reached from `m0`, after filling a hoisting pool. -/
structure HRel (ka : KSA) (pool : HtA) (m0 : PMem C) (s : KS C × HoistedCt C) (m : PMem C) :
    Prop where
  ks : ka.read m = s.1
  ht : pool.read m = s.2
  next : m.next = m0.next
  frame : ∀ p : Ptr, ¬ ka.Has p.o → (∀ i : String, pool.get? i ≠ some p.o) → m.val p = m0.val p

theorem runs_hoistInto {ka : KSA} {pool : HtA} (hw : pool.WF)
    (hi : ∀ {i j : String} {o : ℕ}, pool.get? i = some o → pool.get? j = some o → i = j)
    (hd : ∀ {i : String} {o : ℕ}, pool.get? i = some o → ¬ ka.Has o) {ct : CtA} (level : ℕ)
    (hct : ∀ (i : String) (p : Ptr), ct.get? i = some p →
      ¬ ka.Has p.o ∧ ∀ j : String, pool.get? j ≠ some p.o) (o : List String) (m0 : PMem C) :
    Runs (HRel ka pool m0) (hoistInto level (ct.read m0) o (ka.read m0, pool.read m0))
      (ka.hoistIntoM level ct pool o m0) := by
  unfold hoistInto KSA.hoistIntoM
  refine Runs.forEach o (fun id s m h => ?_) ⟨rfl, rfl, rfl, fun _ _ _ => rfl⟩
  obtain ⟨ks, pv⟩ := s
  obtain ⟨rfl, rfl, hn, hf⟩ := h
  unfold CtA.read
  refine Runs.deref fun p hp => ?_
  unfold HtA.read
  refine Runs.deref fun ad had => ?_
  obtain ⟨hp1, hp2⟩ := hct id p hp
  have hq : m0.q p = m.q p := by unfold PMem.q; rw [hf p hp1 hp2]
  rw [hq]
  obtain ⟨h1, h2, h3, h4⟩ := decompose_into hw hi level (a := p) m had hd
    (fun h => hp2 id (h ▸ had))
  exact ⟨h1, h2, h3.trans hn, fun r hr1 hr2 => by
    rw [h4 r hr1 (fun h => hr2 id (h ▸ had)), hf r hr1 hr2]⟩

/-- The hoisted form `s.1` being built in the memory `s.2`, reached from `m0`. -/
structure LRel (ka : KSA) (m0 : PMem C) (v : KS C × HoistedCt C) (s : HtA × PMem C) : Prop where
  ks : ka.read s.2 = v.1
  ht : s.1.read s.2 = v.2
  wf : s.1.WF
  next : m0.next ≤ s.2.next
  objs : ∀ (i : String) (o : ℕ), s.1.get? i = some o → m0.next ≤ o ∧ o < s.2.next
  inj : ∀ {i j : String} {o : ℕ}, s.1.get? i = some o → s.1.get? j = some o → i = j
  frame : ∀ p : Ptr, ¬ ka.Has p.o → p.o < m0.next → s.2.val p = m0.val p

theorem runs_hoistLoop {ka : KSA} {m0 : PMem C} (hka : ∀ o, ka.Has o → o < m0.next) {ct : CtA}
    (hct : ∀ (i : String) (p : Ptr), ct.get? i = some p → ¬ ka.Has p.o ∧ p.o < m0.next)
    (o : List String) :
    Runs (LRel ka m0) (hoistLoopV (ct.read m0) o (ka.read m0, GoMap.empty))
      (ka.hoistLoopM ct o (GoMap.empty, m0)) := by
  unfold hoistLoopV KSA.hoistLoopM
  refine Runs.forEach o (fun id s t h => ?_) ⟨rfl, rfl, List.nodup_nil, le_rfl,
    fun i p h => absurd h (by simp), fun h => absurd h (by simp), fun _ _ _ => rfl⟩
  obtain ⟨ks, Hv⟩ := s
  obtain ⟨H, m⟩ := t
  obtain ⟨rfl, rfl, hw, hn, ho, hi, hf⟩ := h
  dsimp only at hw hn ho hi hf ⊢
  have hfv : ∀ p : Ptr, p.o < m.next → m.fresh.val p = m.val p := fun p hp =>
    m.fresh_val_of_ne (Nat.ne_of_lt hp)
  have hfo : ∀ o, o < m.next → m.fresh.obj o = m.obj o := fun o ho =>
    funext fun k => hfv ⟨o, k⟩ ho
  -- the new switching key
  have hks : ka.read m.fresh = ka.read m := by
    have hb : ∀ j < 9, ka.base + j < m.next := fun j hj =>
      (hka _ ⟨Nat.le_add_right _ _, by omega⟩).trans_le hn
    unfold KSA.read PMem.q
    rw [hfv _ (hb 0 (by omega)), hfv _ (hb 1 (by omega)), hfv _ (hb 2 (by omega)),
      hfv _ (hb 3 (by omega)), hfv _ (hb 4 (by omega)), hfv _ (hb 5 (by omega)),
      hfo ka.swk1 (hb 6 (by omega)), hfo ka.swk2 (hb 7 (by omega)),
      hfo ka.swk3 (hb 8 (by omega))]
  have hr : HtA.read (H.set id m.next) m.fresh = (H.read m).set id SwKey.new := by
    unfold HtA.read
    rw [GoMap.mapVals_set, m.fresh_obj]
    congr 1
    exact GoMap.mapVals_congr hw fun i o h => hfo o (ho i o h).2
  have hw1 : (H.set id m.next).WF := hw.set _ _
  have ho1 : ∀ (i : String) (o : ℕ), (H.set id m.next).get? i = some o →
      m0.next ≤ o ∧ o < m.next + 1 := fun i o hg => by
    rw [GoMap.get?_set] at hg
    split at hg
    · cases hg; exact ⟨hn, Nat.lt_succ_self _⟩
    · exact ⟨(ho i o hg).1, (ho i o hg).2.trans (Nat.lt_succ_self _)⟩
  have hi1 : ∀ {i j : String} {o : ℕ}, (H.set id m.next).get? i = some o →
      (H.set id m.next).get? j = some o → i = j := by
    intro i j o hi' hj
    rw [GoMap.get?_set] at hi' hj
    split at hi'
    · rename_i e1
      cases hi'
      split at hj
      · rename_i e2; rw [e1, e2]
      · exact absurd (ho j _ hj).2 (lt_irrefl _)
    · split at hj
      · cases hj
        exact absurd (ho i _ hi').2 (lt_irrefl _)
      · exact hi hi' hj
  have hd1 : ∀ {i : String} {o : ℕ}, (H.set id m.next).get? i = some o → ¬ ka.Has o :=
    fun hg hh => absurd (hka _ hh) (not_lt.mpr (ho1 _ _ hg).1)
  have hm1 : ∀ p : Ptr, ¬ ka.Has p.o → p.o < m0.next → m.fresh.val p = m0.val p :=
    fun p h1 h2 => by rw [hfv p (h2.trans_le hn), hf p h1 h2]
  have hq : ∀ (i : String) (p : Ptr), ct.get? i = some p → m0.q p = m.fresh.q p :=
    fun i p hp => by unfold PMem.q; rw [hm1 p (hct i p hp).1 (hct i p hp).2]
  rw [← hr]
  unfold Ct.Level CtA.levelM
  rw [bind_assoc, bind_assoc]
  unfold CtA.read
  refine Runs.deref fun c0 hc0 => ?_
  rw [hq _ _ hc0]
  show Runs _ (GoMap.deref _ _ >>= _) (GoMap.deref _ _ >>= _)
  refine Runs.deref fun p hp => ?_
  unfold HtA.read
  refine Runs.deref fun ad had => ?_
  have hpa : p.o ≠ ad := by
    have h1 := (hct id p hp).2
    have h2 := (ho1 id ad had).1
    omega
  rw [hq _ _ hp, ← hks]
  obtain ⟨h1, h2, h3, h4⟩ := decompose_into hw1 hi1 (m.fresh.q c0).level (a := p) m.fresh had
    hd1 hpa
  refine ⟨h1, h2, hw1, ?_, ?_, hi1, fun r hr1 hr2 => ?_⟩
  · dsimp only
    rw [h3]
    exact hn.trans (Nat.le_succ _)
  · dsimp only
    rw [h3]
    exact ho1
  · rw [h4 r hr1 ?_, hm1 r hr1 hr2]
    have := (ho1 id ad had).1
    omega

/-! ## One command -/

theorem EStep.of_later {st st' : EState C} (h : st.Later st') {x : Go (EVal C)}
    {y : Go (EState C)} (hs : EStep st' x y) : EStep st x y := by
  unfold EStep at hs ⊢
  cases x with
  | error e => exact hs
  | ok v =>
    obtain ⟨s, h1, h2, h3, h4⟩ := hs
    exact ⟨s, h1, h2, h3, h.trans h4⟩

/-- A computation before the command. -/
theorem EStep.of_runs {σ τ : Type _} {R : σ → τ → Prop} {st : EState C} {x : Go σ} {y : Go τ}
    (h : Runs R x y) {f : σ → Go (EVal C)} {g : τ → Go (EState C)}
    (hk : ∀ s m, R s m → EStep st (f s) (g m)) : EStep st (x >>= f) (y >>= g) := by
  unfold Runs at h
  cases x with
  | error e => cases y with
    | error e' => rw [show e = e' from h]; exact rfl
    | ok m => exact h.elim
  | ok s => cases y with
    | error e' => exact h.elim
    | ok m => exact hk s m h

namespace EState

section safe

variable {st : EState C} (h : st.Ok) {out : CtA} (hsafe : ∀ o, st.Free o → Safe st.ka out o)
include h hsafe

theorem safe_ct {ct : CtA} (hct : ct ∈ st.cts) : CtSafe st.ka out ct := fun i p hp =>
  hsafe _ ((h.cts ct hct).2 i p hp)

theorem safe_ht {H : HtA} (hH : H ∈ st.hts) : ObjSafe st.ka out H := fun i o ho =>
  hsafe _ ((h.hts H hH).2 i o ho)

theorem safe_crs : ObjSafe st.ka out st.k.kg.crs := fun _ _ ho =>
  hsafe _ (h.crs _ (mem_of_get? ho))

theorem safe_rlk : RlkSafe st.ka out st.rlk.value := fun i k hk => by
  have hm := h.rlk _ (mem_of_get? hk)
  exact ⟨hsafe _ (h.objs _ (KState.mem_objs_rlk hm (by simp [RlkA.objs]))),
    hsafe _ (h.objs _ (KState.mem_objs_rlk hm (by simp [RlkA.objs]))),
    hsafe _ (h.objs _ (KState.mem_objs_rlk hm (by simp [RlkA.objs])))⟩

theorem safe_rot : RotSafe st.ka out st.rot := fun i r k hk => by
  unfold RotationKeySet.get at hk
  cases h1 : st.rot.value.get? i with
  | none => rw [h1] at hk; exact absurd hk (by simp)
  | some g =>
    rw [h1] at hk
    dsimp only at hk
    cases h2 : g.get? r with
    | none => rw [h2] at hk; exact absurd hk (by simp)
    | some k' =>
      rw [h2] at hk
      injection hk with hk
      subst hk
      have hm := h.rot _ (mem_of_get? h1) _ (mem_of_get? h2)
      exact hsafe _ (h.objs _ (KState.mem_objs_rot hm (by simp [RotA.objs])))

theorem safe_cj : CjSafe st.ka out st.cj := fun i k hk => by
  unfold KeySet.get at hk
  cases h1 : st.cj.value.get? i with
  | none => rw [h1] at hk; exact absurd hk (by simp)
  | some k' =>
    rw [h1] at hk
    injection hk with hk
    subst hk
    have hm := h.cj _ (mem_of_get? h1)
    exact hsafe _ (h.objs _ (KState.mem_objs_cj hm (by simp [CjA.objs])))

end safe

/-- Filling a hoisting pool. -/
theorem hoist_step {st : EState C} (h : st.Ok) (b : Bool) {ct : CtA} (hct : ct ∈ st.cts)
    (level : ℕ) (o : List String) :
    Runs (fun s m => (st.setM m).Ok ∧ st.Later (st.setM m) ∧
        (∀ p : Ptr, st.Free p.o → m.val p = st.m.val p) ∧ st.ka.read m = s.1 ∧
        HtA.read (st.pool b) m = s.2 ∧
        HtA.read (st.pool !b) m = HtA.read (st.pool !b) st.m ∧
        st.ed.read m = st.ed.read st.m)
      (hoistInto level (ct.read st.m) o (st.ka.read st.m, HtA.read (st.pool b) st.m))
      (st.ka.hoistIntoM level ct (st.pool b) o st.m) := by
  refine (runs_hoistInto (h.poolWF b) (fun {i j o} hi hj => (h.poolInj b b i j o hi hj).2)
    (fun {i o} hi => (h.pool b i o hi).2) level
    (fun i p hp => ⟨((h.cts ct hct).2 i p hp).2.1, ((h.cts ct hct).2 i p hp).2.2.1 b⟩) o
    st.m).mono fun s m hr => ?_
  have hs : ∀ p : Ptr, st.Free p.o → m.val p = st.m.val p := fun p hp =>
    hr.frame p hp.2.1 (hp.2.2.1 b)
  refine ⟨h.setM (le_of_eq hr.next.symm), Later.setM (le_of_eq hr.next.symm) hs, hs, hr.ks, hr.ht,
    ?_, read_ed fun p hp => hr.frame p (h.ed _ hp).2.1 fun i => (h.ed _ hp).2.2 b i⟩
  refine GoMap.mapVals_congr (h.poolWF _) fun i o ho => funext fun k => ?_
  refine hr.frame ⟨o, k⟩ (h.pool _ i o ho).2 fun j hj => ?_
  have := (h.poolInj _ _ i j o ho hj).1
  cases b <;> simp at this

end EState

/-- The product of two ciphertexts with the hoisted forms in the pools. -/
theorem mulPools_step {st : EState C} (h : st.Ok) {a b : CtA} (ha : a ∈ st.cts) (hb : b ∈ st.cts)
    (b0 b1 : Bool) (level : ℕ) (ids : List String) (o : MulOrd)
    (rv : RelinKeySet (RelinKey C) (SwKey C)) (hv : rv.value = st.read.rlk.value) :
    EStep st (st.read.evalV level ids fun out ks =>
        ks.MulAndRelinHoisted st.read.k.crs (a.read st.m) (b.read st.m)
          (some (HtA.read (st.pool b0) st.m)) (some (HtA.read (st.pool b1) st.m)) rv out o)
      (st.evalM level ids fun out m => st.ka.MulAndRelinHoistedM st.k.kg.crs a b
        (some (st.pool b0)) (some (st.pool b1)) st.rlk.value out o m) := by
  refine evalM_step h level ids fun out m' hO hs hread hsafe hpool => ?_
  have hp : ∀ b, HtA.read (st.pool b) m' = HtA.read (st.pool b) st.m := by
    rintro (_ | _)
    · exact congrArg (fun v => v.rlk.pool0) hread
    · exact congrArg (fun v => v.rlk.pool1) hread
  have := C70_mulHoisted (d0 := some (st.pool b0)) (d1 := some (st.pool b1)) m' rv o hO
    (EState.safe_ct h hsafe ha) (EState.safe_ct h hsafe hb)
    (fun H hH => by cases hH; exact hpool b0) (fun H hH => by cases hH; exact hpool b1)
    (EState.safe_crs h hsafe) (EState.safe_rlk h hsafe)
    (hv.trans (EState.frame_rlks h hs).symm)
  rw [EState.frame_crs h hs, EState.frame_ct h hs ha, EState.frame_ct h hs hb, Option.map_some,
    Option.map_some, hp, hp] at this
  exact this

theorem rotAdd_mem {P : RotA → Prop} {s : RotationKeySet RotA}
    (h : ∀ e ∈ s.value.entries, ∀ e' ∈ e.2.entries, P e'.2) {k : RotA} (hk : P k) :
    ∀ e ∈ (s.add RotA.id RotA.rotIdx k).value.entries, ∀ e' ∈ e.2.entries, P e'.2 := by
  unfold RotationKeySet.add
  dsimp only
  have hv : ∀ e ∈ (if s.value.has k.id then s.value else s.value.set k.id GoMap.empty).entries,
      ∀ e' ∈ e.2.entries, P e'.2 := by
    split
    · exact h
    · intro e he
      rcases mem_set_entries he with he | rfl
      · exact h e he
      · intro e' he'
        exact absurd he' (by simp [GoMap.empty])
  revert hv
  generalize (if s.value.has k.id then s.value else s.value.set k.id GoMap.empty) = v
  intro hv
  cases hg : v.get? k.id with
  | none => exact hv
  | some inner =>
    intro e he
    rcases mem_set_entries he with he | rfl
    · exact hv e he
    · intro e' he'
      rcases mem_set_entries he' with he' | rfl
      · exact hv _ (mem_of_get? hg) e' he'
      · exact hk

/-- The keys of a key generation step join the state. -/
theorem EState.Ok.withKeys {st : EState C} (h : st.Ok) {k : KState C} (hk : k.Ok)
    (hl : st.k.Later k) : ({ st with k := k } : EState C).Ok ∧
      st.Later { st with k := k } := by
  have hown : ∀ o, st.k.kg.Owns st.m o → k.kg.Owns k.m o := fun o ho =>
    ⟨ho.1.trans_le hl.next, by rw [hl.poolQ]; exact ho.2.1, by rw [hl.poolQP]; exact ho.2.2⟩
  have hfree : ∀ o, st.Free o → ({ st with k := k } : EState C).Free o := fun o ho =>
    ⟨hown o ho.1, ho.2⟩
  have hnew : ∀ o, st.k.m.next ≤ o → k.kg.Owns k.m o → ({ st with k := k } : EState C).Free o :=
    fun o h1 h2 => by
      refine ⟨h2, fun ho => ?_, fun b i ho => ?_, fun ho => ?_⟩
      · have : o < st.k.m.next := (h.ka o ho).1
        omega
      · have : o < st.k.m.next := (h.pool b i o ho).1.1
        omega
      · have : o < st.k.m.next := (h.ed o ho).1.1
        omega
  refine ⟨⟨hk, fun o ho => hown o (h.ka o ho), fun o ho => ?_, fun e he => ?_,
    fun e he => hl.rlks.subset (h.rlk e he), fun e he e' he' => hl.rots.subset (h.rot e he e' he'),
    fun e he => hl.cjs.subset (h.cj e he),
    fun ct hct => ⟨(h.cts ct hct).1, fun i p hp => hfree _ ((h.cts ct hct).2 i p hp)⟩,
    fun H hH => ⟨(h.hts H hH).1, fun i o ho => hfree _ ((h.hts H hH).2 i o ho)⟩,
    fun b i o ho => ⟨hown o (h.pool b i o ho).1, (h.pool b i o ho).2⟩, h.poolWF, h.poolInj,
    fun o ho => ⟨hown o (h.ed o ho).1, (h.ed o ho).2⟩, fun e he => hl.sks.subset (h.sk e he),
    h.skWF, h.skId⟩,
    ⟨rfl, hl.sks, hl.pks, hl.rlks, hl.rots, hl.cjs, List.prefix_rfl, List.prefix_rfl, rfl,
      List.prefix_rfl, hfree,
      fun p hp => hl.same p hp.1⟩⟩
  · rcases hl.newObjs o ho with h1 | h1
    · exact hfree o (h.objs o h1)
    · exact hnew o h1 (hk.owns o ho)
  · rcases hl.newCrs e he with h1 | h1
    · exact hfree _ (h.crs e h1)
    · exact hnew _ h1 (hk.wf.crs e he)

/-- `AddRelinearizationKey`. -/
theorem addRlk_step {st : EState C} (h : st.Ok) {k : RlkA} (hk : k ∈ st.k.rlks) :
    EStep st (.ok { st.read with rlk := st.read.rlk.add RelinKey.id SwKey.new (k.read st.m) })
      (.ok { st.setM (addRlkM st.rlk k st.m).2 with rlk := (addRlkM st.rlk k st.m).1 }) := by
  set m2 := st.m.fresh.fresh with hm2
  have hold : ∀ p : Ptr, p.o < st.m.next → m2.val p = st.m.val p := fun p hp => by
    rw [hm2, fresh_val_of_ne, fresh_val_of_ne]
    · exact Nat.ne_of_lt hp
    · exact Nat.ne_of_lt (hp.trans (Nat.lt_succ_self _))
  have hn : st.m.next ≤ m2.next := (Nat.le_succ _).trans (Nat.le_succ _)
  have hn0 : st.m.next < m2.next := Nat.lt_succ_of_lt (Nat.lt_succ_self _)
  have hn1 : st.m.next + 1 < m2.next := Nat.lt_succ_self _
  have hread := EState.read_alloc h hold
  have hok := h.setM hn
  set st' : EState C := { st.setM m2 with rlk := (addRlkM st.rlk k st.m).1 } with hst'
  -- what is in the pools now
  have hpool : ∀ (b : Bool) (i : String) (o : ℕ), (st'.pool b).get? i = some o →
      (i = k.id ∧ o = st.m.next + b.toNat) ∨ (i ≠ k.id ∧ (st.pool b).get? i = some o) := by
    rintro b i o hg
    cases b
    · have hg' : (st.rlk.pool0.set k.id st.m.next).get? i = some o := hg
      rw [GoMap.get?_set] at hg'
      split at hg'
      · cases hg'; exact .inl ⟨‹_›, rfl⟩
      · exact .inr ⟨‹_›, hg'⟩
    · have hg' : (st.rlk.pool1.set k.id (st.m.next + 1)).get? i = some o := hg
      rw [GoMap.get?_set] at hg'
      split at hg'
      · cases hg'; exact .inl ⟨‹_›, rfl⟩
      · exact .inr ⟨‹_›, hg'⟩
  have hb : ∀ b : Bool, b.toNat ≤ 1 := fun b => by cases b <;> simp
  have hnew : ∀ b : Bool, st'.k.kg.Owns st'.m (st.m.next + b.toNat) ∧
      ¬ st'.ka.Has (st.m.next + b.toNat) := fun b => by
    have h1 : st.k.kg.poolQ.o < st.m.next := h.key.wf.poolQ
    have h2 : st.k.kg.poolQP.o < st.m.next := h.key.wf.poolQP
    refine ⟨⟨?_, ?_, ?_⟩, fun hh => ?_⟩
    · have := hb b
      show st.m.next + b.toNat < m2.next
      omega
    · show st.m.next + b.toNat ≠ st.k.kg.poolQ.o
      omega
    · show st.m.next + b.toNat ≠ st.k.kg.poolQP.o
      omega
    · have := (h.ka _ hh).1
      omega
  have hfree : ∀ o, st.Free o → st'.Free o := fun o ho => by
    refine ⟨(ho.setM hn).1, ho.2.1, fun b i hg => ?_, ho.2.2.2⟩
    rcases hpool b i o hg with ⟨_, rfl⟩ | ⟨_, hg⟩
    · have := ho.1.1
      omega
    · exact ho.2.2.1 b i hg
  refine ⟨st', rfl, ?_, ?_, ⟨rfl, List.prefix_rfl, List.prefix_rfl, List.prefix_rfl,
    List.prefix_rfl, List.prefix_rfl, List.prefix_rfl, List.prefix_rfl, rfl, List.prefix_rfl, hfree,
    fun p hp => hold p hp.1.1⟩⟩
  · have e : st'.read = { (st.setM m2).read with
        rlk := (st.setM m2).read.rlk.add RelinKey.id SwKey.new (k.read m2) } := by
      unfold EState.read RelinKeySet.add
      dsimp only
      congr 1
      show RelinKeySet.mk _ _ _ = _
      congr 1
      · show readRlks (st.rlk.value.set k.id k) m2 = _
        unfold readRlks
        rw [GoMap.mapVals_set]
        rfl
      · show HtA.read (st.rlk.pool0.set k.id st.m.next) m2 = _
        unfold HtA.read
        rw [GoMap.mapVals_set]
        congr 1
        funext j
        show m2.val ⟨st.m.next, j⟩ = _
        rw [hm2, fresh_val_of_ne _ (by show st.m.next ≠ st.m.next + 1; omega)]
        exact congrFun st.m.fresh_obj j
      · show HtA.read (st.rlk.pool1.set k.id (st.m.next + 1)) m2 = _
        unfold HtA.read
        rw [GoMap.mapVals_set]
        congr 1
        exact st.m.fresh.fresh_obj
    rw [e, hread, EState.frame_rlk h (fun p hp => hold p hp.1.1) hk]
  · exact
    { key := hok.key
      ka := hok.ka
      objs := fun o ho => hfree o (h.objs o ho)
      crs := fun e he => hfree _ (h.crs e he)
      rlk := fun e he => by
        rcases mem_set_entries (g := st.rlk.value) he with he | rfl
        · exact h.rlk e he
        · exact hk
      rot := h.rot
      cj := h.cj
      cts := fun ct hct => ⟨(h.cts ct hct).1, fun i p hp => hfree _ ((h.cts ct hct).2 i p hp)⟩
      hts := fun H hH => ⟨(h.hts H hH).1, fun i o ho => hfree _ ((h.hts H hH).2 i o ho)⟩
      pool := fun b i o hg => by
        rcases hpool b i o hg with ⟨_, rfl⟩ | ⟨_, hg⟩
        · exact hnew b
        · exact hok.pool b i o hg
      poolWF := fun b => by
        cases b
        · exact (h.poolWF false).set _ _
        · exact (h.poolWF true).set _ _
      poolInj := fun b b' i i' o hg hg' => by
        rcases hpool b i o hg with ⟨h1, h2⟩ | ⟨h1, h2⟩ <;>
          rcases hpool b' i' o hg' with ⟨h3, h4⟩ | ⟨h3, h4⟩
        · refine ⟨?_, h1.trans h3.symm⟩
          rw [h2] at h4
          revert h4
          cases b <;> cases b' <;> simp
        · have := (h.pool b' i' o h4).1.1
          change o < st.m.next at this
          omega
        · have := (h.pool b i o h2).1.1
          change o < st.m.next at this
          omega
        · exact h.poolInj b b' i i' o h2 h4
      ed := fun o ho => ⟨(hok.ed o ho).1, (hok.ed o ho).2.1, fun b i hg => by
        rcases hpool b i o hg with ⟨_, rfl⟩ | ⟨_, hg⟩
        · have := (h.ed _ ho).1.1
          omega
        · exact (h.ed o ho).2.2 b i hg⟩
      sk := h.sk
      skWF := h.skWF
      skId := h.skId }

theorem KSA.read_congr {ka : KSA} {m m' : PMem C}
    (h : ∀ p : Ptr, ka.Has p.o → m'.val p = m.val p) : ka.read m' = ka.read m := by
  have hv : ∀ j < 9, ∀ k, m'.val ⟨ka.base + j, k⟩ = m.val ⟨ka.base + j, k⟩ := fun j hj k =>
    h _ ⟨Nat.le_add_right _ _, by dsimp only; omega⟩
  have ho : ∀ j < 9, m'.obj (ka.base + j) = m.obj (ka.base + j) := fun j hj =>
    funext fun k => hv j hj k
  unfold KSA.read PMem.q
  rw [show m'.val ka.poolInv = _ from hv 0 (by omega) 0, show m'.val ka.pool0 = _ from
    hv 1 (by omega) 0, show m'.val ka.pool1 = _ from hv 2 (by omega) 0,
    show m'.val ka.pq0 = _ from hv 3 (by omega) 0, show m'.val ka.pq1 = _ from hv 4 (by omega) 0,
    show m'.val ka.pq2 = _ from hv 5 (by omega) 0, show m'.obj ka.swk1 = _ from ho 6 (by omega),
    show m'.obj ka.swk2 = _ from ho 7 (by omega), show m'.obj ka.swk3 = _ from ho 8 (by omega)]
  rfl

/-- Only the scratch of encryptor and decryptor changes, and there are new cells. -/
theorem EState.read_edM {st : EState C} (h : st.Ok) {m' : PMem C}
    (hs : ∀ p : Ptr, p.o < st.m.next → ¬ st.ed.Has p.o → m'.val p = st.m.val p) :
    (st.setM m').read = { st.read with ed := st.ed.read m' } := by
  have hp : ∀ b, HtA.read (st.pool b) m' = HtA.read (st.pool b) st.m := fun b =>
    GoMap.mapVals_congr (h.poolWF b) fun i o ho => funext fun j =>
      hs ⟨o, j⟩ (h.pool b i o ho).1.1 fun he => (h.ed _ he).2.2 b i ho
  rw [EState.read_setM h fun p hp => hs p hp.1.1 hp.2.2.2,
    KSA.read_congr fun p hp => hs p (h.ka _ hp).1 fun he => (h.ed _ he).2.1 hp,
    show HtA.read st.rlk.pool0 m' = _ from hp false,
    show HtA.read st.rlk.pool1 m' = _ from hp true]
  rfl

/-- A ciphertext in new cells joins the state. -/
theorem newCt_step {st : EState C} (h : st.Ok) {ct : CtA} {m' : PMem C} (hn : FreshCtA st.m ct m')
    (hs : ∀ p : Ptr, p.o < st.m.next → ¬ st.ed.Has p.o → m'.val p = st.m.val p) {v : EVal C}
    (hv : v = { st.read with ed := st.ed.read m', cts := st.read.cts ++ [ct.read m'] }) :
    EStep st (.ok v) (.ok { st.setM m' with cts := st.cts ++ [ct] }) := by
  refine ⟨_, rfl, ?_, (h.setM hn.next).addCt hn.wf fun i p hp =>
    h.newFree (hn.objs i p hp).1 (hn.objs i p hp).2,
    (EState.Later.setM hn.next fun p hp => hs p hp.1.1 hp.2.2.2).trans (.addCt _ _)⟩
  have e : ({ st.setM m' with cts := st.cts ++ [ct] } : EState C).read =
      { (st.setM m').read with cts := (st.setM m').read.cts ++ [ct.read m'] } := by
    unfold EState.read
    dsimp only
    congr 1
    exact List.map_append
  dsimp only at e
  rw [e, EState.read_edM h hs, hv]

theorem NewCtA.fresh {m m' : PMem C} {ct : CtA} (h : NewCtA m ct m') : FreshCtA m ct m' :=
  ⟨h.wf, h.next, h.objs, h.inj⟩

/-- **C70 (one command).** -/
theorem C70_step {st : EState C} (h : st.Ok) (c : ECmd C) :
    EStep st (c.runV st.read) (c.runM st) := by
  cases c with
  | key c =>
    have hk := C69_step h.key c
    unfold ECmd.runV ECmd.runM
    dsimp only
    rw [show st.read.k = st.k.read from rfl]
    unfold KStep at hk
    cases hx : c.runV st.k.read with
    | error e => rw [hx] at hk; rw [show c.runM st.k = _ from hk]; exact rfl
    | ok v =>
      rw [hx] at hk
      obtain ⟨k, h1, h2, h3, h4⟩ := hk
      rw [h1]
      obtain ⟨hok, hl⟩ := h.withKeys h3 h4
      refine ⟨_, rfl, ?_, hok, hl⟩
      have hs : ∀ p : Ptr, st.Free p.o → k.m.val p = st.m.val p := fun p hp => h4.same p hp.1
      have e : ({ st with k := k } : EState C).read = { (st.setM k.m).read with k := k.read } := rfl
      have hp : ∀ b, HtA.read (st.pool b) k.m = HtA.read (st.pool b) st.m := fun b =>
        GoMap.mapVals_congr (h.poolWF b) fun i o ho => funext fun j =>
          h4.same ⟨o, j⟩ (h.pool b i o ho).1
      rw [e, EState.read_setM h hs, h2,
        KSA.read_congr fun p hp => h4.same p (h.ka _ hp),
        show HtA.read st.rlk.pool0 k.m = _ from hp false,
        show HtA.read st.rlk.pool1 k.m = _ from hp true,
        EState.read_ed fun p hp => h4.same p (h.ed _ hp).1]
      show EVal.mk _ _ _ _ _ _ _ _ _ _ = EVal.mk _ _ _ _ _ _ _ _ _ _
      rfl
  | addRlk i =>
    unfold ECmd.runV ECmd.runM
    dsimp only
    rw [show st.read.k.rlks[i]? = st.k.rlks[i]?.map fun k => k.read st.m from
      read_getElem? _ _ _]
    cases hi : st.k.rlks[i]? with
    | none => exact .refl h
    | some k => exact addRlk_step h (List.mem_of_getElem? hi)
  | addRot i =>
    unfold ECmd.runV ECmd.runM
    dsimp only
    rw [show st.read.k.rots[i]? = st.k.rots[i]?.map fun k => k.read st.m from
      read_getElem? _ _ _]
    cases hi : st.k.rots[i]? with
    | none => exact .refl h
    | some k =>
      refine ⟨_, rfl, ?_, { h with
        rot := rotAdd_mem h.rot (List.mem_of_getElem? hi) }, { EState.Later.refl st with }⟩
      unfold EState.read
      dsimp only
      congr 1
      exact readRots_add _ _ _
  | addCj i =>
    unfold ECmd.runV ECmd.runM
    dsimp only
    rw [show st.read.k.cjs[i]? = st.k.cjs[i]?.map fun k => k.read st.m from
      read_getElem? _ _ _]
    cases hi : st.k.cjs[i]? with
    | none => exact .refl h
    | some k =>
      refine ⟨_, rfl, ?_, { h with
        cj := fun e he => by
          rcases mem_set_entries he with he | rfl
          · exact h.cj e he
          · exact List.mem_of_getElem? hi }, { EState.Later.refl st with }⟩
      unfold EState.read
      dsimp only
      congr 1
      show readCjs _ _ = _
      unfold readCjs KeySet.add
      rw [GoMap.mapVals_set]
      rfl
  | put ids v =>
    unfold ECmd.runV ECmd.runM
    dsimp only
    obtain ⟨hn, hr⟩ := ctFromM_spec v ids st.m
    generalize ctFromM v ids st.m = s at hn hr
    obtain ⟨ct, m1⟩ := s
    dsimp only at hn hr ⊢
    refine ⟨_, rfl, ?_, (h.setM hn.next).addCt hn.wf fun i p hp =>
      h.newFree (hn.objs i p hp).1 (hn.objs i p hp).2,
      (EState.Later.setM hn.next fun p hp => hn.old p hp.1.1).trans (.addCt _ _)⟩
    have e : ({ st.setM m1 with cts := st.cts ++ [ct] } : EState C).read =
        { (st.setM m1).read with cts := (st.setM m1).read.cts ++ [ct.read m1] } := by
      unfold EState.read
      dsimp only
      congr 1
      exact List.map_append
    dsimp only at e
    rw [e, EState.read_alloc h hn.old, hr]
  | hoist i o =>
    unfold ECmd.runV ECmd.runM
    dsimp only
    rw [show st.read.cts[i]? = st.cts[i]?.map fun ct => ct.read st.m from
      read_getElem? _ _ _]
    cases hi : st.cts[i]? with
    | none => exact .refl h
    | some ct =>
      have hct := List.mem_of_getElem? hi
      refine EStep.of_runs (runs_hoistLoop (fun o ho => (h.ka o ho).1)
        (fun i p hp => ⟨((h.cts ct hct).2 i p hp).2.1, ((h.cts ct hct).2 i p hp).1.1⟩) o)
        fun s t hr => ?_
      obtain ⟨ks, Hv⟩ := s
      obtain ⟨H, m1⟩ := t
      obtain ⟨h1, h2, hw, hn, ho, _, hf⟩ := hr
      dsimp only at h1 h2 hw hn ho hf ⊢
      have hs : ∀ p : Ptr, st.Free p.o → m1.val p = st.m.val p := fun p hp =>
        hf p hp.2.1 hp.1.1
      have hok := h.setM hn
      refine ⟨{ st.setM m1 with hts := st.hts ++ [H] }, rfl, ?_, { hok with
        hts := fun H' hH' => by
          rcases List.mem_append.mp hH' with hH' | hH'
          · exact hok.hts H' hH'
          · rw [List.mem_singleton.mp hH']
            exact ⟨hw, fun i o hg => h.newFree (ho i o hg).1 (ho i o hg).2⟩ },
        (EState.Later.setM hn hs).trans { EState.Later.refl (st.setM m1) with
          hts := List.prefix_append _ _ }⟩
      have e : ({ st.setM m1 with hts := st.hts ++ [H] } : EState C).read =
          { (st.setM m1).read with hts := (st.setM m1).read.hts ++ [H.read m1] } := by
        unfold EState.read
        dsimp only
        congr 1
        exact List.map_append
      have hp : ∀ b, HtA.read (st.pool b) m1 = HtA.read (st.pool b) st.m := fun b =>
        GoMap.mapVals_congr (h.poolWF b) fun i o ho => funext fun j =>
          hf ⟨o, j⟩ (h.pool b i o ho).2 (h.pool b i o ho).1.1
      rw [e, EState.read_setM h hs, h1, h2, show HtA.read st.rlk.pool0 m1 = _ from hp false,
        show HtA.read st.rlk.pool1 m1 = _ from hp true,
        EState.read_ed fun p hp => hf p (h.ed _ hp).2.1 (h.ed _ hp).1.1]
      rfl
  | mulNew i j level l0 l1 ids o0 o1 o =>
    unfold ECmd.runV ECmd.runM
    dsimp only
    rw [show st.read.cts[i]? = st.cts[i]?.map fun ct => ct.read st.m from
      read_getElem? _ _ _, show st.read.cts[j]? = st.cts[j]?.map fun ct => ct.read st.m from
      read_getElem? _ _ _]
    cases hi : st.cts[i]? with
    | none => exact .refl h
    | some a =>
      cases hj : st.cts[j]? with
      | none => exact .refl h
      | some b =>
        have ha := List.mem_of_getElem? hi
        have hb := List.mem_of_getElem? hj
        dsimp only [Option.map_some]
        split
        · refine EStep.of_runs (EState.hoist_step h false ha l0 o0) fun s m1 hr => ?_
          obtain ⟨ks, p0⟩ := s
          obtain ⟨hok, hl, hs, h1, h2, h3, h7⟩ := hr
          dsimp only at h1 h2 h3 ⊢
          refine .of_later hl ?_
          have e := EState.read_setM h hs
          have := mulPools_step hok ha hb false false level ids o
            { st.read.rlk with pool0 := p0 } (by rw [e])
          rw [e, h1, show HtA.read st.rlk.pool0 m1 = _ from h2,
            show HtA.read st.rlk.pool1 m1 = _ from h3, h7,
            show a.read (st.setM m1).m = a.read st.m from EState.frame_ct h hs ha,
            show b.read (st.setM m1).m = b.read st.m from EState.frame_ct h hs hb,
            show HtA.read ((st.setM m1).pool false) (st.setM m1).m = p0 from h2] at this
          exact this
        · refine EStep.of_runs (EState.hoist_step h false ha l0 o0) fun s m1 hr => ?_
          obtain ⟨ks, p0⟩ := s
          obtain ⟨hok, hl, hs, h1, h2, h3, h7⟩ := hr
          dsimp only at h1 h2 h3 ⊢
          have hst := EState.hoist_step hok true (ct := b) hb l1 o1
          rw [show b.read (st.setM m1).m = b.read st.m from EState.frame_ct h hs hb,
            show (st.setM m1).ka.read (st.setM m1).m = ks from h1,
            show HtA.read ((st.setM m1).pool true) (st.setM m1).m = st.read.rlk.pool1 from h3]
            at hst
          refine EStep.of_runs hst fun s m2 hr => ?_
          obtain ⟨ks2, p1⟩ := s
          obtain ⟨hok2, hl2, hs2, h4, h5, h6, h8⟩ := hr
          dsimp only at h4 h5 h6 ⊢
          refine .of_later (hl.trans hl2) ?_
          have hs' : ∀ p : Ptr, st.Free p.o → m2.val p = st.m.val p := fun p hp =>
            (hs2 p (hl.free _ hp)).trans (hs p hp)
          have e := EState.read_setM h hs'
          have h6' : HtA.read st.rlk.pool0 m2 = p0 := h6.trans h2
          have := mulPools_step (st := st.setM m2) hok2 ha hb false true level ids o
            { st.read.rlk with pool0 := p0, pool1 := p1 } (by rw [e])
          rw [e, show st.ka.read m2 = ks2 from h4, h6',
            show HtA.read st.rlk.pool1 m2 = p1 from h5,
            show st.ed.read m2 = st.ed.read st.m from h8.trans h7,
            show a.read (st.setM m2).m = a.read st.m from EState.frame_ct h hs' ha,
            show b.read (st.setM m2).m = b.read st.m from EState.frame_ct h hs' hb,
            show HtA.read ((st.setM m2).pool false) (st.setM m2).m = p0 from h6',
            show HtA.read ((st.setM m2).pool true) (st.setM m2).m = p1 from h5] at this
          exact this
  | mul i j level ids o =>
    unfold ECmd.runV ECmd.runM
    dsimp only
    rw [show st.read.cts[i]? = st.cts[i]?.map fun ct => ct.read st.m from
      read_getElem? _ _ _, show st.read.cts[j]? = st.cts[j]?.map fun ct => ct.read st.m from
      read_getElem? _ _ _]
    cases hi : st.cts[i]? with
    | none => exact .refl h
    | some a =>
      cases hj : st.cts[j]? with
      | none => exact .refl h
      | some b =>
        have ha := List.mem_of_getElem? hi
        have hb := List.mem_of_getElem? hj
        refine evalM_step h level ids fun out m' hO hs hread hsafe hpool => ?_
        have := C70_mul m' st.read.rlk o hO (EState.safe_ct h hsafe ha) (EState.safe_ct h hsafe hb)
          (EState.safe_crs h hsafe) (EState.safe_rlk h hsafe) (EState.frame_rlks h hs).symm
        rw [EState.frame_crs h hs, EState.frame_ct h hs ha, EState.frame_ct h hs hb] at this
        exact this
  | mulHoisted i j h0 h1 level ids o =>
    unfold ECmd.runV ECmd.runM
    dsimp only
    rw [show st.read.cts[i]? = st.cts[i]?.map fun ct => ct.read st.m from
      read_getElem? _ _ _, show st.read.cts[j]? = st.cts[j]?.map fun ct => ct.read st.m from
      read_getElem? _ _ _]
    cases hi : st.cts[i]? with
    | none => exact .refl h
    | some a =>
      cases hj : st.cts[j]? with
      | none => exact .refl h
      | some b =>
        have ha := List.mem_of_getElem? hi
        have hb := List.mem_of_getElem? hj
        refine evalM_step h level ids fun out m' hO hs hread hsafe hpool => ?_
        have hH : ∀ j, HtSafe st.ka out st.hts[j]? := fun j H hH =>
          EState.safe_ht h hsafe (List.mem_of_getElem? hH)
        have hR : ∀ j : ℕ, (st.hts[j]?.map fun H => HtA.read H m') = st.read.hts[j]? := fun j => by
          rw [show st.read.hts[j]? = st.hts[j]?.map fun H => HtA.read H st.m from
            read_getElem? _ _ _]
          cases hj : st.hts[j]? with
          | none => rfl
          | some H =>
            exact congrArg some (EState.frame_ht h hs (List.mem_of_getElem? hj))
        have := C70_mulHoisted m' st.read.rlk o hO (EState.safe_ct h hsafe ha)
          (EState.safe_ct h hsafe hb) (hH h0) (hH h1)
          (EState.safe_crs h hsafe) (EState.safe_rlk h hsafe) (EState.frame_rlks h hs).symm
        rw [EState.frame_crs h hs, EState.frame_ct h hs ha, EState.frame_ct h hs hb, hR, hR] at this
        exact this
  | rot i r level ids o =>
    unfold ECmd.runV ECmd.runM
    dsimp only
    rw [show st.read.cts[i]? = st.cts[i]?.map fun ct => ct.read st.m from
      read_getElem? _ _ _]
    cases hi : st.cts[i]? with
    | none => exact .refl h
    | some a =>
      have ha := List.mem_of_getElem? hi
      refine evalM_step h level ids fun out m' hO hs hread hsafe hpool => ?_
      have := C70_rotate m' r o hO (EState.safe_ct h hsafe ha) (EState.safe_crs h hsafe)
        (EState.safe_rot h hsafe)
      rw [EState.frame_crs h hs, EState.frame_ct h hs ha, EState.frame_rots h hs] at this
      exact this
  | rotHoisted i j r level ids o =>
    unfold ECmd.runV ECmd.runM
    dsimp only
    rw [show st.read.cts[i]? = st.cts[i]?.map fun ct => ct.read st.m from
      read_getElem? _ _ _, show st.read.hts[j]? = st.hts[j]?.map fun H => HtA.read H st.m from
      read_getElem? _ _ _]
    cases hi : st.cts[i]? with
    | none => exact .refl h
    | some a =>
      cases hj : st.hts[j]? with
      | none => exact .refl h
      | some H =>
        have ha := List.mem_of_getElem? hi
        have hH := List.mem_of_getElem? hj
        refine evalM_step h level ids fun out m' hO hs hread hsafe hpool => ?_
        have := C70_rotateHoisted m' r o hO (EState.safe_ct h hsafe ha)
          (EState.safe_ht h hsafe hH) (EState.safe_crs h hsafe) (EState.safe_rot h hsafe)
        rw [EState.frame_crs h hs, EState.frame_ct h hs ha, EState.frame_rots h hs,
          EState.frame_ht h hs hH] at this
        exact this
  | conj i level ids o =>
    unfold ECmd.runV ECmd.runM
    dsimp only
    rw [show st.read.cts[i]? = st.cts[i]?.map fun ct => ct.read st.m from
      read_getElem? _ _ _]
    cases hi : st.cts[i]? with
    | none => exact .refl h
    | some a =>
      have ha := List.mem_of_getElem? hi
      refine evalM_step h level ids fun out m' hO hs hread hsafe hpool => ?_
      have := C70_conjugate m' o hO (EState.safe_ct h hsafe ha) (EState.safe_crs h hsafe)
        (EState.safe_cj h hsafe)
      rw [EState.frame_crs h hs, EState.frame_ct h hs ha, EState.frame_cjs h hs] at this
      exact this

  | addSk i =>
    unfold ECmd.runV ECmd.runM
    dsimp only
    rw [show st.read.k.sks[i]? = st.k.sks[i]?.map fun k => k.read st.m from
      read_getElem? _ _ _]
    cases hi : st.k.sks[i]? with
    | none => exact .refl h
    | some k =>
      refine ⟨_, rfl, ?_, { h with
        sk := fun e he => by
          rcases mem_set_entries he with he | rfl
          · exact h.sk e he
          · exact List.mem_of_getElem? hi
        skWF := h.skWF.set _ _
        skId := fun e he => by
          rcases mem_set_entries he with he | rfl
          · exact h.skId e he
          · rfl }, { EState.Later.refl st with }⟩
      unfold EState.read
      dsimp only
      congr 1
      show readSks _ _ = _
      unfold readSks KeySet.add
      rw [GoMap.mapVals_set]
      rfl
  | enc f i level ids u e0 e1 =>
    unfold ECmd.runV ECmd.runM
    dsimp only
    rw [show st.read.k.pks[i]? = st.k.pks[i]?.map fun k => k.read st.m from
      read_getElem? _ _ _]
    cases hi : st.k.pks[i]? with
    | none => exact .refl h
    | some pk =>
      have hpk := List.mem_of_getElem? hi
      have hf : ∀ p, p = pk.value0 ∨ p = pk.value1 → st.Free p.o := fun p hp =>
        h.objs _ (KState.mem_objs_pk hpk (by rcases hp with rfl | rfl <;> simp [PkA.objs]))
      refine EStep.of_runs (C71_encMsg f u e0 e1 level ids st.m
        (h.ed (st.ed.base + 2) ⟨Nat.le_add_right _ _, by omega⟩).1.1
        fun p hp => ⟨(hf p hp).1.1, (hf p hp).2.2.2⟩) fun v s hr => ?_
      obtain ⟨ct, m1⟩ := s
      obtain ⟨hn, hc, he, hs⟩ := hr
      dsimp only at hn hc he hs ⊢
      exact newCt_step h hn (fun p h1 h2 => hs p h1
        (fun e => h2 (e ▸ ⟨le_rfl, by simp [EDA.poolQ]⟩))
        fun e => h2 (e ▸ ⟨Nat.le_succ _, by simp [EDA.ptxt]⟩)) (by rw [hc, he])
  | copy i o =>
    unfold ECmd.runV ECmd.runM
    dsimp only
    rw [show st.read.cts[i]? = st.cts[i]?.map fun ct => ct.read st.m from
      read_getElem? _ _ _]
    cases hi : st.cts[i]? with
    | none => exact .refl h
    | some ct =>
      have hct := List.mem_of_getElem? hi
      refine EStep.of_runs (C71_copy o st.m fun i p hp => ((h.cts ct hct).2 i p hp).1.1)
        fun v s hr => ?_
      obtain ⟨ct', m1⟩ := s
      obtain ⟨hn, hc⟩ := hr
      dsimp only at hn hc ⊢
      refine newCt_step h hn.fresh (fun p h1 _ => hn.old p h1) ?_
      rw [hc, EState.read_ed fun p hp => hn.old p (h.ed _ hp).1.1]
      rfl
  | pdec i k o =>
    unfold ECmd.runV ECmd.runM
    dsimp only
    rw [show st.read.cts[i]? = st.cts[i]?.map fun ct => ct.read st.m from
      read_getElem? _ _ _, show st.read.k.sks[k]? = st.k.sks[k]?.map fun k => k.read st.m from
      read_getElem? _ _ _]
    cases hi : st.cts[i]? with
    | none => exact .refl h
    | some ct =>
      cases hk : st.k.sks[k]? with
      | none => exact .refl h
      | some sk =>
        have hct := List.mem_of_getElem? hi
        have hsk := List.mem_of_getElem? hk
        refine EStep.of_runs (C71_copy o st.m fun i p hp => ((h.cts ct hct).2 i p hp).1.1)
          fun v s hr => ?_
        refine EStep.of_runs (C71_partial hr
          (h.objs _ (KState.mem_objs_sk hsk (by simp [SkA.objs]))).1.1) fun v s hr => ?_
        obtain ⟨ct', m1⟩ := s
        obtain ⟨hn, hc⟩ := hr
        dsimp only at hn hc ⊢
        refine newCt_step h hn.fresh (fun p h1 _ => hn.old p h1) ?_
        rw [hc, EState.read_ed fun p hp => hn.old p (h.ed _ hp).1.1]
        rfl
  | dec i oA oC oI oS =>
    unfold ECmd.runV ECmd.runM
    dsimp only
    rw [show st.read.cts[i]? = st.cts[i]?.map fun ct => ct.read st.m from
      read_getElem? _ _ _]
    cases hi : st.cts[i]? with
    | none => exact .refl h
    | some ct =>
      have hct := List.mem_of_getElem? hi
      have hd : st.ed.Has st.ed.dpool.o := ⟨Nat.le_add_right _ _, by simp [EDA.dpool]⟩
      refine EStep.of_runs (C71_cdecrypt h.skWF oA oC oI oS st.m (h.ed _ hd).1.1
        (fun i p hp => ((h.cts ct hct).2 i p hp).1.1) fun k sk hg => ?_) fun v m1 hr => ?_
      · have hf := h.objs sk.value.o (KState.mem_objs_sk (h.sk _ (mem_of_get? hg)) (by simp [SkA.objs]))
        exact ⟨hf.1.1, fun e => hf.2.2.2 (e ▸ hd)⟩
      · obtain ⟨h1, h2, h3⟩ := hr
        have hs : ∀ p : Ptr, p.o < st.m.next → ¬ st.ed.Has p.o → m1.val p = st.m.val p :=
          fun p a b => h3 p a fun e => b (e ▸ hd)
        have hok := h.setM h2
        refine ⟨_, rfl, ?_, { hok with }, (EState.Later.setM h2 fun p hp =>
          hs p hp.1.1 hp.2.2.2).trans { EState.Later.refl (st.setM m1) with
            outs := List.prefix_append _ _ }⟩
        show ({ (st.setM m1).read with outs := st.outs ++ [m1.q st.ed.dpool] } : EVal C) = _
        rw [EState.read_edM h hs, h1]
        have e : st.ed.read m1 = { st.read.ed with dpool := v } := by
          unfold EDA.read
          rw [h1]
          have hq : ∀ p : Ptr, st.ed.Has p.o → p ≠ st.ed.dpool → m1.q p = st.m.q p :=
            fun p a b => by
              unfold PMem.q
              rw [h3 p (h.ed _ a).1.1 b]
          rw [hq st.ed.poolQ ⟨le_rfl, by simp [EDA.poolQ]⟩ (ptr_ne (by
              show st.ed.base ≠ st.ed.base + 2
              omega)),
            hq st.ed.ptxt ⟨Nat.le_succ _, by simp [EDA.ptxt]⟩ (ptr_ne (by
              show st.ed.base + 1 ≠ st.ed.base + 2
              omega))]
          rfl
        rw [e]
        rfl

/-- A sequence of commands. -/
theorem C70_run {st : EState C} (h : st.Ok) (l : List (ECmd C)) :
    EStep st (runEV st.read l) (runEM st l) := by
  induction l generalizing st with
  | nil => exact .refl h
  | cons c l ih =>
    have hc := C70_step h c
    unfold runEV runEM
    unfold EStep at hc
    cases hx : c.runV st.read with
    | error e => rw [hx] at hc; rw [show c.runM st = _ from hc]; exact rfl
    | ok v =>
      rw [hx] at hc
      obtain ⟨st', h1, h2, h3, h4⟩ := hc
      rw [h1]
      have := ih h3
      rw [h2] at this
      exact .of_later h4 this

/-- The start on values. -/
def startEV (logN : ℕ) (u : ℤ → ℕ → QP C) : EVal C :=
  ⟨startV logN u, KS.new, RelinKeySet.new, .new, .new, [], [], EDVal.new, .new, []⟩

theorem fresh_val_eq (m : PMem C) (p : Ptr) :
    m.fresh.val p = if p.o = m.next then QP.new else m.val p := by
  split
  · exact m.fresh_val_next ‹_›
  · exact m.fresh_val_of_ne ‹_›

theorem newKeySwitcherM_val (m : PMem C) (p : Ptr) :
    (newKeySwitcherM m).2.val p =
      if m.next ≤ p.o ∧ p.o < m.next + 9 then QP.new else m.val p := by
  unfold newKeySwitcherM
  simp only [fresh_val_eq, show ∀ m : PMem C, m.fresh.next = m.next + 1 from fun _ => rfl]
  by_cases h : m.next ≤ p.o ∧ p.o < m.next + 9
  · rw [if_pos h]
    obtain ⟨j, hj⟩ := Nat.exists_eq_add_of_le h.1
    have hj9 : j < 9 := by omega
    rw [hj]
    interval_cases j <;> simp [Nat.add_assoc]
  · rw [if_neg h]
    repeat rw [if_neg (by omega)]

theorem newEncDecM_val (m : PMem C) {p : Ptr} (hp : p.o < m.next) :
    (newEncDecM m).2.val p = m.val p := by
  unfold newEncDecM
  dsimp only
  rw [PMem.val_wrQ_of_ne, PMem.val_wrQ_of_ne, PMem.val_wrQ_of_ne, fresh_val_of_ne, fresh_val_of_ne,
    fresh_val_of_ne]
  · omega
  · show p.o ≠ m.next + 1
    omega
  · show p.o ≠ m.next + 1 + 1
    omega
  · refine ptr_ne ?_
    show p.o ≠ m.next
    omega
  · refine ptr_ne ?_
    show p.o ≠ m.next + 1
    omega
  · refine ptr_ne ?_
    show p.o ≠ m.next + 2
    omega

theorem newEncDecM_read (m : PMem C) : (newEncDecM m).1.read (newEncDecM m).2 = EDVal.new := by
  unfold newEncDecM EDA.read EDVal.new
  dsimp only
  have h01 : EDA.poolQ ⟨m.next⟩ ≠ EDA.ptxt ⟨m.next⟩ := ptr_ne (by
    show m.next ≠ m.next + 1
    omega)
  have h02 : EDA.poolQ ⟨m.next⟩ ≠ EDA.dpool ⟨m.next⟩ := ptr_ne (by
    show m.next ≠ m.next + 2
    omega)
  have h12 : EDA.ptxt ⟨m.next⟩ ≠ EDA.dpool ⟨m.next⟩ := ptr_ne (by
    show m.next + 1 ≠ m.next + 2
    omega)
  rw [PMem.q_wrQ_of_ne _ _ h02, PMem.q_wrQ_of_ne _ _ h01, PMem.q_wrQ_self,
    PMem.q_wrQ_of_ne _ _ h12, PMem.q_wrQ_self, PMem.q_wrQ_self]

theorem startEM_ok (logN : ℕ) (u : ℤ → ℕ → QP C) (m : PMem C) :
    (startEM logN u m).Ok ∧ (startEM logN u m).read = startEV logN u := by
  obtain ⟨hk, hr⟩ := startM_ok logN u m
  set k := startM logN u m with hkdef
  have hobjs : k.objs = [] := by rw [hkdef]; simp [startM, KState.objs]
  set m0 := (newKeySwitcherM k.m).2 with hm0
  set m1 := (newEncDecM m0).2 with hm1
  have hv := newKeySwitcherM_val k.m
  have hn0 : m0.next = k.m.next + 9 := rfl
  have hn : m1.next = k.m.next + 12 := rfl
  have hst : startEM logN u m = ⟨{ k with m := m1 }, ⟨k.m.next⟩, .new, .new, .new, [], [],
    ⟨k.m.next + 9⟩, .new, []⟩ := rfl
  have hold : ∀ p : Ptr, p.o < k.m.next → m1.val p = k.m.val p := fun p hp => by
    rw [hm1, newEncDecM_val m0 (by omega), hm0, hv, if_neg (by omega)]
  have hkeeps : k.kg.Keeps k.m m1 := ⟨by omega, fun p hp => hold p hp.1⟩
  have hpool : ∀ (b : Bool) (i : String) (o : ℕ),
      ((startEM logN u m).pool b).get? i ≠ some o := by
    rintro (_ | _) i o h <;> exact absurd h (by simp [hst, EState.pool, RelinKeySet.new])
  constructor
  · refine
      { key := ⟨hk.wf.mono (show k.m.next ≤ m1.next by omega), fun o ho => ?_, ?_⟩
        ka := fun o ho => ?_
        objs := fun o ho => ?_
        crs := fun e he => ?_
        rlk := fun e he => absurd he (by simp [hst, RelinKeySet.new, GoMap.empty])
        rot := fun e he => absurd he (by simp [hst, RotationKeySet.new, GoMap.empty])
        cj := fun e he => absurd he (by simp [hst, KeySet.new, GoMap.empty])
        cts := fun ct hct => absurd hct (by simp [hst])
        hts := fun H hH => absurd hH (by simp [hst])
        pool := fun b i o ho => absurd ho (hpool b i o)
        poolWF := fun b => by cases b <;> exact List.nodup_nil
        poolInj := fun b _ i _ o ho _ => absurd ho (hpool b i o)
        ed := fun o ho => ?_
        sk := fun e he => absurd he (by simp [hst, KeySet.new, GoMap.empty])
        skWF := List.nodup_nil
        skId := fun e he => absurd he (by simp [hst, KeySet.new, GoMap.empty]) }
    · have : o ∈ k.objs := ho
      rw [hobjs] at this
      exact absurd this (by simp)
    · show k.objs.Nodup
      rw [hobjs]
      exact List.nodup_nil
    · have h1 : k.m.next ≤ o := ho.1
      have h2 : o < k.m.next + 9 := ho.2
      have h3 := hk.wf.poolQ
      have h4 := hk.wf.poolQP
      refine ⟨?_, ?_, ?_⟩
      · show o < k.m.next + 12
        omega
      · show o ≠ k.kg.poolQ.o
        omega
      · show o ≠ k.kg.poolQP.o
        omega
    · have : o ∈ k.objs := ho
      rw [hobjs] at this
      exact absurd this (by simp)
    · have h1 := hk.wf.crs e he
      refine ⟨⟨?_, h1.2⟩, fun hh => ?_, fun b i => hpool b i _, fun hh => ?_⟩
      · show e.2 < m1.next
        have := h1.1
        omega
      · have h2 : k.m.next ≤ e.2 := hh.1
        have := h1.1
        omega
      · have h2 : k.m.next + 9 ≤ e.2 := hh.1
        have := h1.1
        omega
    · have h1 : k.m.next + 9 ≤ o := ho.1
      have h2 : o < k.m.next + 9 + 3 := ho.2
      have h3 := hk.wf.poolQ
      have h4 := hk.wf.poolQP
      refine ⟨⟨?_, ?_, ?_⟩, fun hh => ?_, fun b i => hpool b i _⟩
      · show o < k.m.next + 12
        omega
      · show o ≠ k.kg.poolQ.o
        omega
      · show o ≠ k.kg.poolQP.o
        omega
      · have : o < k.m.next + 9 := hh.2
        omega
  · have hread : ({ k with m := m1 } : KState C).read = k.read := KState.read_keeps hk hkeeps
    have hnew : ∀ j < 9, ∀ i, m1.val ⟨k.m.next + j, i⟩ = QP.new := fun j hj i => by
      rw [hm1, newEncDecM_val m0 (by dsimp only; omega), hm0, hv,
        if_pos ⟨Nat.le_add_right _ _, by dsimp only; omega⟩]
    have hnewO : ∀ j < 9, m1.obj (k.m.next + j) = SwKey.new := fun j hj =>
      funext fun i => hnew j hj i
    rw [hst]
    unfold EState.read startEV
    dsimp only
    rw [hread, hr]
    congr 1
    swap
    · exact newEncDecM_read m0
    show KSA.read ⟨k.m.next⟩ m1 = _
    unfold KSA.read KS.new PMem.q
    rw [show m1.val (KSA.poolInv ⟨k.m.next⟩) = _ from hnew 0 (by omega) 0,
      show m1.val (KSA.pool0 ⟨k.m.next⟩) = _ from hnew 1 (by omega) 0,
      show m1.val (KSA.pool1 ⟨k.m.next⟩) = _ from hnew 2 (by omega) 0,
      show m1.val (KSA.pq0 ⟨k.m.next⟩) = _ from hnew 3 (by omega) 0,
      show m1.val (KSA.pq1 ⟨k.m.next⟩) = _ from hnew 4 (by omega) 0,
      show m1.val (KSA.pq2 ⟨k.m.next⟩) = _ from hnew 5 (by omega) 0,
      show m1.obj (KSA.swk1 ⟨k.m.next⟩) = _ from hnewO 6 (by omega),
      show m1.obj (KSA.swk2 ⟨k.m.next⟩) = _ from hnewO 7 (by omega),
      show m1.obj (KSA.swk3 ⟨k.m.next⟩) = _ from hnewO 8 (by omega)]
    rfl

/-- **C70.** Whatever sequence of commands a user runs after `NewParameters`, `NewKeyGenerator`,
`NewKeySwitcher`, `NewEncryptor` and `NewDecryptor` — generating keys, filling key sets, encrypting,
making hoisted forms, multiplying, rotating, conjugating and decrypting — it panics exactly when the
computation on values does, and otherwise keys, key sets, ciphertexts, hoisted forms and decrypted
plaintexts are at the end what the computation on values gives. -/
theorem C70_session (logN : ℕ) (u : ℤ → ℕ → QP C) (m : PMem C) (l : List (ECmd C)) :
    match runEV (startEV logN u) l with
    | .error p => runEM (startEM logN u m) l = .error p
    | .ok v => ∃ st, runEM (startEM logN u m) l = .ok st ∧ st.read = v ∧ st.Ok := by
  obtain ⟨hok, hr⟩ := startEM_ok logN u m
  have h := C70_run hok l
  rw [hr] at h
  cases hx : runEV (startEV logN u) l with
  | error p => rw [hx] at h; exact h
  | ok v =>
    rw [hx] at h
    obtain ⟨st, h1, h2, h3, _⟩ := h
    exact ⟨st, h1, h2, h3⟩

/-- **C70 (nothing obtained earlier changes).** Whatever the user does later, the keys, the
ciphertexts and the hoisted forms obtained earlier are still there with the same contents. -/
theorem C70_unchanged {logN : ℕ} {u : ℤ → ℕ → QP C} {m : PMem C} {l l' : List (ECmd C)}
    {st st' : EState C} (h : runEM (startEM logN u m) l = .ok st) (h' : runEM st l' = .ok st') :
    (∀ (i : ℕ) (k : SkA), st.k.sks[i]? = some k →
      st'.k.sks[i]? = some k ∧ k.read st'.m = k.read st.m) ∧
    (∀ (i : ℕ) (k : PkA), st.k.pks[i]? = some k →
      st'.k.pks[i]? = some k ∧ k.read st'.m = k.read st.m) ∧
    (∀ (i : ℕ) (k : RlkA), st.k.rlks[i]? = some k →
      st'.k.rlks[i]? = some k ∧ k.read st'.m = k.read st.m) ∧
    (∀ (i : ℕ) (k : RotA), st.k.rots[i]? = some k →
      st'.k.rots[i]? = some k ∧ k.read st'.m = k.read st.m) ∧
    (∀ (i : ℕ) (k : CjA), st.k.cjs[i]? = some k →
      st'.k.cjs[i]? = some k ∧ k.read st'.m = k.read st.m) ∧
    (∀ (i : ℕ) (ct : CtA), st.cts[i]? = some ct →
      st'.cts[i]? = some ct ∧ ct.read st'.m = ct.read st.m) ∧
    ∀ (i : ℕ) (H : HtA), st.hts[i]? = some H →
      st'.hts[i]? = some H ∧ H.read st'.m = H.read st.m := by
  have hok : st.Ok := by
    have h1 := C70_session logN u m l
    cases hx : runEV (startEV logN u) l with
    | error p =>
      rw [hx] at h1
      rw [show runEM (startEM logN u m) l = .error p from h1] at h
      exact absurd h (by simp)
    | ok v =>
      rw [hx] at h1
      obtain ⟨st1, h2, _, h4⟩ := h1
      rw [h] at h2
      injection h2 with h2
      rw [h2]
      exact h4
  have hl : st.Later st' := by
    have h1 := C70_run hok l'
    cases hx : runEV st.read l' with
    | error p =>
      rw [hx] at h1
      rw [show runEM st l' = .error p from h1] at h'
      exact absurd h' (by simp)
    | ok v =>
      rw [hx] at h1
      obtain ⟨st1, h2, _, _, h4⟩ := h1
      rw [h'] at h2
      injection h2 with h2
      rw [h2]
      exact h4
  have pre : ∀ {α : Type} {a b : List α} {i : ℕ} {k : α}, a <+: b → a[i]? = some k →
      b[i]? = some k := by
    rintro α a b i k ⟨t, rfl⟩ hk
    obtain ⟨hi, _⟩ := List.getElem?_eq_some_iff.mp hk
    rw [List.getElem?_append_left hi, hk]
  have hs := hl.same
  refine ⟨fun i k hk => ⟨pre hl.sks hk, ?_⟩, fun i k hk => ⟨pre hl.pks hk, ?_⟩,
    fun i k hk => ⟨pre hl.rlks hk, EState.frame_rlk hok hs (List.mem_of_getElem? hk)⟩,
    fun i k hk => ⟨pre hl.rots hk, EState.frame_rot hok hs (List.mem_of_getElem? hk)⟩,
    fun i k hk => ⟨pre hl.cjs hk, EState.frame_cj hok hs (List.mem_of_getElem? hk)⟩,
    fun i k hk => ⟨pre hl.cts hk, EState.frame_ct hok hs (List.mem_of_getElem? hk)⟩,
    fun i k hk => ⟨pre hl.hts hk, EState.frame_ht hok hs (List.mem_of_getElem? hk)⟩⟩
  · unfold SkA.read
    rw [hs _ (hok.objs _ (KState.mem_objs_sk (List.mem_of_getElem? hk) (by simp [SkA.objs])))]
  · unfold PkA.read
    rw [hs _ (hok.objs _ (KState.mem_objs_pk (List.mem_of_getElem? hk) (by simp [PkA.objs]))),
      hs _ (hok.objs _ (KState.mem_objs_pk (List.mem_of_getElem? hk) (by simp [PkA.objs])))]

end MK
