import Verif.Props.KeyMem

/-!
# C69: any sequence of key generations on memory
-/

noncomputable section

namespace MK

open PMem

variable {C : Ctx}

/-! ## The same user on values -/

/-- The user's state on values: what the pointers point to. -/
structure KVal (C : Ctx) where
  crs : CRS C
  sks : List (SecretKey C)
  pks : List (PublicKey C)
  rlks : List (RelinKey C)
  rots : List (RotKey C)
  cjs : List (ConjKey C)

/-- One command with the functions of mkrlwe/keygen.go on values; the pools are zero. -/
def KCmd.runV (st : KVal C) : KCmd C → Go (KVal C)
  | .genSk s id => .ok { st with sks := st.sks ++ [GenSecretKey s id] }
  | .genPk i e =>
    match st.sks[i]? with
    | none => .ok st
    | some sk => do
      let k ← GenPublicKey st.crs e sk
      return { st with pks := st.pks ++ [k] }
  | .genRlk i j eb ed ev =>
    match st.sks[i]?, st.sks[j]? with
    | some sk, some r => do
      let k ← GenRelinearizationKey st.crs (RPoly.new 0) QP.new eb ed ev sk r
      return { st with rlks := st.rlks ++ [k] }
    | _, _ => .ok st
  | .genRot i rotidx e =>
    match st.sks[i]? with
    | none => .ok st
    | some sk => do
      let k ← GenRotationKey st.crs (RPoly.new 0) e rotidx sk
      return { st with rots := st.rots ++ [k] }
  | .genCj i e =>
    match st.sks[i]? with
    | none => .ok st
    | some sk => do
      let k ← GenConjugationKey st.crs (RPoly.new 0) e sk
      return { st with cjs := st.cjs ++ [k] }
  | .addCRS idx u => .ok { st with crs := MK.addCRS st.crs idx (crsVec u) }

/-- A sequence of commands on values. -/
def runV (st : KVal C) : List (KCmd C) → Go (KVal C)
  | [] => .ok st
  | c :: l => do
    let st ← c.runV st
    runV st l

/-- The values a user on memory holds. -/
def KState.read (st : KState C) : KVal C where
  crs := readCRS st.kg.crs st.m
  sks := st.sks.map fun k => k.read st.m
  pks := st.pks.map fun k => k.read st.m
  rlks := st.rlks.map fun k => k.read st.m
  rots := st.rots.map fun k => k.read st.m
  cjs := st.cjs.map fun k => k.read st.m

/-- The generator is well formed; all keys are in allocated objects, none of which is a pool,
and no two keys (nor two parts of one key) share an object. -/
structure KState.Ok (st : KState C) : Prop where
  wf : st.kg.WF st.m
  owns : ∀ o ∈ st.objs, st.kg.Owns st.m o
  nodup : st.objs.Nodup

/-- `st'` is a later state of `st`: the pointers obtained earlier are still held, in the same
positions, and what they point to is unchanged; what is new is in new objects. -/
structure KState.Later (st st' : KState C) : Prop where
  next : st.m.next ≤ st'.m.next
  poolQ : st'.kg.poolQ = st.kg.poolQ
  poolQP : st'.kg.poolQP = st.kg.poolQP
  sks : st.sks <+: st'.sks
  pks : st.pks <+: st'.pks
  rlks : st.rlks <+: st'.rlks
  rots : st.rots <+: st'.rots
  cjs : st.cjs <+: st'.cjs
  same : ∀ p : Ptr, st.kg.Owns st.m p.o → st'.m.val p = st.m.val p
  newObjs : ∀ o ∈ st'.objs, o ∈ st.objs ∨ st.m.next ≤ o
  newCrs : ∀ e ∈ st'.kg.crs.entries, e ∈ st.kg.crs.entries ∨ st.m.next ≤ e.2

namespace KState

theorem Later.refl (st : KState C) : st.Later st :=
  ⟨le_rfl, rfl, rfl, List.prefix_rfl, List.prefix_rfl, List.prefix_rfl, List.prefix_rfl, List.prefix_rfl,
    fun _ _ => rfl, fun _ h => .inl h, fun _ h => .inl h⟩

theorem Later.trans {a b c : KState C} (h : a.Later b) (h' : b.Later c) : a.Later c where
  next := h.next.trans h'.next
  poolQ := h'.poolQ.trans h.poolQ
  poolQP := h'.poolQP.trans h.poolQP
  sks := h.sks.trans h'.sks
  pks := h.pks.trans h'.pks
  rlks := h.rlks.trans h'.rlks
  rots := h.rots.trans h'.rots
  cjs := h.cjs.trans h'.cjs
  same p hp := by
    rw [h'.same p ⟨hp.1.trans_le h.next, by rw [h.poolQ]; exact hp.2.1,
      by rw [h.poolQP]; exact hp.2.2⟩, h.same p hp]
  newObjs o ho := (h'.newObjs o ho).elim (h.newObjs o) fun hn => .inr (h.next.trans hn)
  newCrs e he := (h'.newCrs e he).elim (h.newCrs e) fun hn => .inr (h.next.trans hn)

theorem mem_objs_sk {st : KState C} {k : SkA} (h : k ∈ st.sks) {o : ℕ} (ho : o ∈ k.objs) :
    o ∈ st.objs := by
  unfold objs
  simp only [List.mem_append, List.mem_flatMap]
  exact .inl (.inl (.inl (.inl ⟨k, h, ho⟩)))

theorem mem_objs_pk {st : KState C} {k : PkA} (h : k ∈ st.pks) {o : ℕ} (ho : o ∈ k.objs) :
    o ∈ st.objs := by
  unfold objs
  simp only [List.mem_append, List.mem_flatMap]
  exact .inl (.inl (.inl (.inr ⟨k, h, ho⟩)))

theorem mem_objs_rlk {st : KState C} {k : RlkA} (h : k ∈ st.rlks) {o : ℕ} (ho : o ∈ k.objs) :
    o ∈ st.objs := by
  unfold objs
  simp only [List.mem_append, List.mem_flatMap]
  exact .inl (.inl (.inr ⟨k, h, ho⟩))

theorem mem_objs_rot {st : KState C} {k : RotA} (h : k ∈ st.rots) {o : ℕ} (ho : o ∈ k.objs) :
    o ∈ st.objs := by
  unfold objs
  simp only [List.mem_append, List.mem_flatMap]
  exact .inl (.inr ⟨k, h, ho⟩)

theorem mem_objs_cj {st : KState C} {k : CjA} (h : k ∈ st.cjs) {o : ℕ} (ho : o ∈ k.objs) :
    o ∈ st.objs := by
  unfold objs
  simp only [List.mem_append, List.mem_flatMap]
  exact .inr ⟨k, h, ho⟩

/-- Nothing a user holds changes when the caller's objects are kept. -/
theorem read_keeps {st : KState C} (h : st.Ok) {m' : PMem C} (hk : st.kg.Keeps st.m m') :
    (⟨m', st.kg, st.sks, st.pks, st.rlks, st.rots, st.cjs⟩ : KState C).read = st.read := by
  unfold read
  congr 1
  · exact readCRS_keeps h.wf hk
  · refine List.map_congr_left fun k hm => ?_
    unfold SkA.read
    rw [hk.2 _ (h.owns _ (mem_objs_sk hm (by simp [SkA.objs])))]
  · refine List.map_congr_left fun k hm => ?_
    unfold PkA.read
    rw [hk.2 _ (h.owns _ (mem_objs_pk hm (by simp [PkA.objs]))),
      hk.2 _ (h.owns _ (mem_objs_pk hm (by simp [PkA.objs])))]
  · refine List.map_congr_left fun k hm => ?_
    unfold RlkA.read
    rw [hk.obj (h.owns _ (mem_objs_rlk hm (by simp [RlkA.objs]))),
      hk.obj (h.owns _ (mem_objs_rlk hm (by simp [RlkA.objs]))),
      hk.obj (h.owns _ (mem_objs_rlk hm (by simp [RlkA.objs])))]
  · refine List.map_congr_left fun k hm => ?_
    unfold RotA.read
    rw [hk.obj (h.owns _ (mem_objs_rot hm (by simp [RotA.objs])))]
  · refine List.map_congr_left fun k hm => ?_
    unfold CjA.read
    rw [hk.obj (h.owns _ (mem_objs_cj hm (by simp [CjA.objs])))]

/-- A new key keeps the state in order. -/
theorem Ok.add {st st' : KState C} (h : st.Ok) (hkg : st'.kg = st.kg)
    (hk : st.kg.Keeps st.m st'.m) {l : List ℕ} (hn : st.m.New st'.m l)
    (hp : st'.objs.Perm (l ++ st.objs)) : st'.Ok := by
  have hl : ∀ o ∈ l, st.kg.Owns st'.m o := fun o ho => by
    have := hn.2 o ho
    have := h.wf.poolQ
    have := h.wf.poolQP
    refine ⟨?_, ?_, ?_⟩ <;> omega
  refine ⟨by rw [hkg]; exact h.wf.mono hk.1, fun o ho => ?_, ?_⟩
  · rw [hkg]
    rcases List.mem_append.mp (hp.mem_iff.mp ho) with ho | ho
    · exact hl o ho
    · exact (h.owns o ho).mono hk.1
  · rw [hp.nodup_iff]
    refine List.nodup_append.mpr ⟨hn.1, h.nodup, fun a ha b hb hab => ?_⟩
    have := (hn.2 a ha).1
    have := (h.owns b hb).1
    omega

end KState

/-- What a command on memory does, relative to the command on values. -/
def KStep (st : KState C) (x : Go (KVal C)) (y : Go (KState C)) : Prop :=
  match x with
  | .error p => y = .error p
  | .ok v => ∃ st', y = .ok st' ∧ st'.read = v ∧ st'.Ok ∧ st.Later st'

theorem KStep.refl {st : KState C} (h : st.Ok) : KStep st (.ok st.read) (.ok st) :=
  ⟨st, rfl, rfl, h, .refl st⟩

theorem perm_of_count {l l' : List ℕ} (h : ∀ a, l.count a = l'.count a) : l.Perm l' :=
  List.perm_iff_count.mpr h

theorem read_getElem? {α β : Type} (f : α → β) (l : List α) (i : ℕ) :
    (l.map f)[i]? = l[i]?.map f := List.getElem?_map

/-- One command. -/
theorem C69_step {st : KState C} (h : st.Ok) (c : KCmd C) :
    KStep st (c.runV st.read) (c.runM st) := by
  cases c with
  | genSk s id =>
    obtain ⟨k, m', hy, hr, hk, hn⟩ := C69_secret_key st.kg s id st.m
    injection hy with hy
    refine ⟨{ st with m := m', sks := st.sks ++ [k] }, ?_, ?_, h.add rfl hk hn ?_, ?_⟩
    · simp only [KCmd.runM, hy]
    · have := KState.read_keeps h hk
      unfold KState.read at this ⊢
      simp only [KVal.mk.injEq] at this
      obtain ⟨h1, h2, h3, h4, h5, h6⟩ := this
      simp only [List.map_append, h1, h2, h3, h4, h5, h6, List.map_cons, List.map_nil, hr]
    · refine perm_of_count fun a => ?_
      simp only [KState.objs, List.flatMap_append, List.count_append, List.flatMap_cons,
        List.flatMap_nil, List.append_nil]
      omega
    · exact ⟨hk.1, rfl, rfl, List.prefix_append _ _, List.prefix_rfl, List.prefix_rfl, List.prefix_rfl, List.prefix_rfl, hk.2,
          fun o ho => by
            simp only [KState.objs, List.flatMap_append, List.mem_append, List.flatMap_cons,
              List.flatMap_nil, List.append_nil] at ho ⊢
            have := hn.2 o
            tauto, fun _ h => .inl h⟩
  | genPk i e =>
    unfold KCmd.runV KCmd.runM
    dsimp only
    rw [show st.read.sks[i]? = _ from read_getElem? _ _ _]
    cases hi : st.sks[i]? with
    | none => exact .refl h
    | some sk =>
      have hsk : st.kg.Owns st.m sk.value.o :=
        h.owns _ (KState.mem_objs_sk (List.mem_of_getElem? hi) (by simp [SkA.objs]))
      have hp := C69_public_key h.wf e hsk
      dsimp only [Option.map_some]
      rw [show st.read.crs = readCRS st.kg.crs st.m from rfl]
      cases hx : GenPublicKey (readCRS st.kg.crs st.m) e (sk.read st.m) with
      | error p =>
        rw [hx] at hp
        rw [show GenPublicKeyM st.kg e sk st.m = .error p from hp]
        rfl
      | ok v =>
        rw [hx] at hp
        obtain ⟨k, m', hy, hr, hk, hn⟩ := hp
        rw [hy]
        refine ⟨{ st with m := m', pks := st.pks ++ [k] }, rfl, ?_, h.add rfl hk hn ?_, ?_⟩
        · have := KState.read_keeps h hk
          unfold KState.read at this ⊢
          simp only [KVal.mk.injEq] at this
          obtain ⟨h1, h2, h3, h4, h5, h6⟩ := this
          simp only [List.map_append, h1, h2, h3, h4, h5, h6, List.map_cons, List.map_nil, hr]
        · refine perm_of_count fun a => ?_
          simp only [KState.objs, List.flatMap_append, List.count_append, List.flatMap_cons,
            List.flatMap_nil, List.append_nil]
          omega
        · exact ⟨hk.1, rfl, rfl, List.prefix_rfl, List.prefix_append _ _, List.prefix_rfl, List.prefix_rfl, List.prefix_rfl, hk.2,
          fun o ho => by
            simp only [KState.objs, List.flatMap_append, List.mem_append, List.flatMap_cons,
              List.flatMap_nil, List.append_nil] at ho ⊢
            have := hn.2 o
            tauto, fun _ h => .inl h⟩
  | genRlk i j eb ed ev =>
    unfold KCmd.runV KCmd.runM
    dsimp only
    rw [show st.read.sks[i]? = _ from read_getElem? _ _ _,
      show st.read.sks[j]? = _ from read_getElem? _ _ _]
    cases hi : st.sks[i]? with
    | none => exact .refl h
    | some sk =>
    cases hj : st.sks[j]? with
    | none => exact .refl h
    | some r =>
      have hsk : st.kg.Owns st.m sk.value.o :=
        h.owns _ (KState.mem_objs_sk (List.mem_of_getElem? hi) (by simp [SkA.objs]))
      have hr' : st.kg.Owns st.m r.value.o :=
        h.owns _ (KState.mem_objs_sk (List.mem_of_getElem? hj) (by simp [SkA.objs]))
      have hp := C69_relin_key h.wf eb ed ev hsk hr' (RPoly.new 0) QP.new
      dsimp only [Option.map_some]
      rw [show st.read.crs = readCRS st.kg.crs st.m from rfl]
      cases hx : GenRelinearizationKey (readCRS st.kg.crs st.m) (RPoly.new 0) QP.new eb ed ev
          (sk.read st.m) (r.read st.m) with
      | error p =>
        rw [hx] at hp
        rw [show GenRelinearizationKeyM st.kg eb ed ev sk r st.m = .error p from hp]
        rfl
      | ok v =>
        rw [hx] at hp
        obtain ⟨k, m', hy, hr, hk, hn⟩ := hp
        rw [hy]
        refine ⟨{ st with m := m', rlks := st.rlks ++ [k] }, rfl, ?_, h.add rfl hk hn ?_, ?_⟩
        · have := KState.read_keeps h hk
          unfold KState.read at this ⊢
          simp only [KVal.mk.injEq] at this
          obtain ⟨h1, h2, h3, h4, h5, h6⟩ := this
          simp only [List.map_append, h1, h2, h3, h4, h5, h6, List.map_cons, List.map_nil, hr]
        · refine perm_of_count fun a => ?_
          simp only [KState.objs, List.flatMap_append, List.count_append, List.flatMap_cons,
            List.flatMap_nil, List.append_nil]
          omega
        · exact ⟨hk.1, rfl, rfl, List.prefix_rfl, List.prefix_rfl, List.prefix_append _ _, List.prefix_rfl, List.prefix_rfl, hk.2,
          fun o ho => by
            simp only [KState.objs, List.flatMap_append, List.mem_append, List.flatMap_cons,
              List.flatMap_nil, List.append_nil] at ho ⊢
            have := hn.2 o
            tauto, fun _ h => .inl h⟩
  | genRot i rotidx e =>
    unfold KCmd.runV KCmd.runM
    dsimp only
    rw [show st.read.sks[i]? = _ from read_getElem? _ _ _]
    cases hi : st.sks[i]? with
    | none => exact .refl h
    | some sk =>
      have hsk : st.kg.Owns st.m sk.value.o :=
        h.owns _ (KState.mem_objs_sk (List.mem_of_getElem? hi) (by simp [SkA.objs]))
      have hp := C69_rotation_key h.wf e rotidx hsk (RPoly.new 0)
      dsimp only [Option.map_some]
      rw [show st.read.crs = readCRS st.kg.crs st.m from rfl]
      cases hx : GenRotationKey (readCRS st.kg.crs st.m) (RPoly.new 0) e rotidx (sk.read st.m) with
      | error p =>
        rw [hx] at hp
        rw [show GenRotationKeyM st.kg e rotidx sk st.m = .error p from hp]
        rfl
      | ok v =>
        rw [hx] at hp
        obtain ⟨k, m', hy, hr, hk, hn⟩ := hp
        rw [hy]
        refine ⟨{ st with m := m', rots := st.rots ++ [k] }, rfl, ?_, h.add rfl hk hn ?_, ?_⟩
        · have := KState.read_keeps h hk
          unfold KState.read at this ⊢
          simp only [KVal.mk.injEq] at this
          obtain ⟨h1, h2, h3, h4, h5, h6⟩ := this
          simp only [List.map_append, h1, h2, h3, h4, h5, h6, List.map_cons, List.map_nil, hr]
        · refine perm_of_count fun a => ?_
          simp only [KState.objs, List.flatMap_append, List.count_append, List.flatMap_cons,
            List.flatMap_nil, List.append_nil]
          omega
        · exact ⟨hk.1, rfl, rfl, List.prefix_rfl, List.prefix_rfl, List.prefix_rfl, List.prefix_append _ _, List.prefix_rfl, hk.2,
          fun o ho => by
            simp only [KState.objs, List.flatMap_append, List.mem_append, List.flatMap_cons,
              List.flatMap_nil, List.append_nil] at ho ⊢
            have := hn.2 o
            tauto, fun _ h => .inl h⟩
  | genCj i e =>
    unfold KCmd.runV KCmd.runM
    dsimp only
    rw [show st.read.sks[i]? = _ from read_getElem? _ _ _]
    cases hi : st.sks[i]? with
    | none => exact .refl h
    | some sk =>
      have hsk : st.kg.Owns st.m sk.value.o :=
        h.owns _ (KState.mem_objs_sk (List.mem_of_getElem? hi) (by simp [SkA.objs]))
      have hp := C69_conjugation_key h.wf e hsk (RPoly.new 0)
      dsimp only [Option.map_some]
      rw [show st.read.crs = readCRS st.kg.crs st.m from rfl]
      cases hx : GenConjugationKey (readCRS st.kg.crs st.m) (RPoly.new 0) e (sk.read st.m) with
      | error p =>
        rw [hx] at hp
        rw [show GenConjugationKeyM st.kg e sk st.m = .error p from hp]
        rfl
      | ok v =>
        rw [hx] at hp
        obtain ⟨k, m', hy, hr, hk, hn⟩ := hp
        rw [hy]
        refine ⟨{ st with m := m', cjs := st.cjs ++ [k] }, rfl, ?_, h.add rfl hk hn ?_, ?_⟩
        · have := KState.read_keeps h hk
          unfold KState.read at this ⊢
          simp only [KVal.mk.injEq] at this
          obtain ⟨h1, h2, h3, h4, h5, h6⟩ := this
          simp only [List.map_append, h1, h2, h3, h4, h5, h6, List.map_cons, List.map_nil, hr]
        · refine perm_of_count fun a => ?_
          simp only [KState.objs, List.flatMap_append, List.count_append, List.flatMap_cons,
            List.flatMap_nil, List.append_nil]
          omega
        · exact ⟨hk.1, rfl, rfl, List.prefix_rfl, List.prefix_rfl, List.prefix_rfl, List.prefix_rfl, List.prefix_append _ _, hk.2,
          fun o ho => by
            simp only [KState.objs, List.flatMap_append, List.mem_append, List.flatMap_cons,
              List.flatMap_nil, List.append_nil] at ho ⊢
            have := hn.2 o
            tauto, fun _ h => .inl h⟩
  | addCRS idx u =>
    obtain ⟨hw, hk, hr⟩ := C69_add_crs h.wf idx u
    refine ⟨⟨(addCRSM st.kg.crs idx u st.m).2, { st.kg with crs := (addCRSM st.kg.crs idx u st.m).1 },
      st.sks, st.pks, st.rlks, st.rots, st.cjs⟩, rfl, ?_, ⟨hw, fun o ho => ?_, h.nodup⟩, ⟨hk.1, rfl, rfl, List.prefix_rfl, List.prefix_rfl, List.prefix_rfl, List.prefix_rfl, List.prefix_rfl, hk.2, fun _ h => .inl h, fun e he => ?_⟩⟩
    · have := KState.read_keeps h hk
      unfold KState.read at this ⊢
      simp only [KVal.mk.injEq] at this
      obtain ⟨h1, h2, h3, h4, h5, h6⟩ := this
      simp only [h2, h3, h4, h5, h6, hr]
    · exact (h.owns o ho).mono hk.1
    · rcases mem_set_entries he with he | rfl
      · exact .inl he
      · exact .inr le_rfl

/-- Any sequence of commands. -/
theorem C69_run {st : KState C} (h : st.Ok) (l : List (KCmd C)) :
    KStep st (runV st.read l) (runM st l) := by
  induction l generalizing st with
  | nil => exact .refl h
  | cons c l ih =>
    have hs := C69_step h c
    unfold runV runM
    cases hx : c.runV st.read with
    | error p =>
      rw [hx] at hs
      rw [show c.runM st = .error p from hs]
      rfl
    | ok v =>
      rw [hx] at hs
      obtain ⟨st1, hy, rfl, hok, hl⟩ := hs
      rw [hy]
      show KStep st (runV st1.read l) (runM st1 l)
      have h2 := ih hok
      cases hx2 : runV st1.read l with
      | error p => rw [hx2] at h2; exact h2
      | ok v2 =>
        rw [hx2] at h2
        obtain ⟨st2, hy2, hr2, hok2, hl2⟩ := h2
        exact ⟨st2, hy2, hr2, hok2, hl.trans hl2⟩

/-- The user's state on values after `NewParameters` and `NewKeyGenerator`. -/
def startV (logN : ℕ) (u : ℤ → ℕ → QP C) : KVal C :=
  ⟨newCRS logN fun idx => crsVec (u idx), [], [], [], [], []⟩

theorem startM_ok (logN : ℕ) (u : ℤ → ℕ → QP C) (m : PMem C) :
    (startM logN u m).Ok ∧ (startM logN u m).read = startV logN u := by
  obtain ⟨h1, h2, _, _⟩ := C69_start logN u m
  refine ⟨⟨h1, fun o ho => absurd ho (by simp [startM, KState.objs]), ?_⟩, ?_⟩
  · simp [startM, KState.objs]
  · unfold KState.read startV
    rw [h2]
    rfl

/-- **C69.** Whatever sequence of keys a user generates after `NewParameters` and
`NewKeyGenerator`: it panics exactly when the computation on values does, and otherwise all keys
hold at the end, in pairwise distinct objects, what the computation on values gives. -/
theorem C69_session (logN : ℕ) (u : ℤ → ℕ → QP C) (m : PMem C) (l : List (KCmd C)) :
    match runV (startV logN u) l with
    | .error p => runM (startM logN u m) l = .error p
    | .ok v => ∃ st, runM (startM logN u m) l = .ok st ∧ st.read = v ∧ st.Ok := by
  obtain ⟨hok, hr⟩ := startM_ok logN u m
  have h := C69_run hok l
  rw [hr] at h
  cases hx : runV (startV logN u) l with
  | error p => rw [hx] at h; exact h
  | ok v =>
    rw [hx] at h
    obtain ⟨st, h1, h2, h3, _⟩ := h
    exact ⟨st, h1, h2, h3⟩

/-- **C69 (keys stay as they are).** Whatever is generated later, the keys obtained earlier are
still the same keys with the same contents. -/
theorem C69_unchanged {logN : ℕ} {u : ℤ → ℕ → QP C} {m : PMem C} {l l' : List (KCmd C)}
    {st st' : KState C} (h : runM (startM logN u m) l = .ok st) (h' : runM st l' = .ok st') :
    (∀ (i : ℕ) (k : SkA), st.sks[i]? = some k → st'.sks[i]? = some k ∧ k.read st'.m = k.read st.m) ∧
    (∀ (i : ℕ) (k : PkA), st.pks[i]? = some k → st'.pks[i]? = some k ∧ k.read st'.m = k.read st.m) ∧
    (∀ (i : ℕ) (k : RlkA), st.rlks[i]? = some k → st'.rlks[i]? = some k ∧ k.read st'.m = k.read st.m) ∧
    (∀ (i : ℕ) (k : RotA), st.rots[i]? = some k → st'.rots[i]? = some k ∧ k.read st'.m = k.read st.m) ∧
    ∀ (i : ℕ) (k : CjA), st.cjs[i]? = some k → st'.cjs[i]? = some k ∧ k.read st'.m = k.read st.m := by
  have hok : st.Ok := by
    have h1 := C69_session logN u m l
    cases hx : runV (startV logN u) l with
    | error p =>
      rw [hx] at h1
      rw [show runM (startM logN u m) l = .error p from h1] at h
      exact absurd h (by simp)
    | ok v =>
      rw [hx] at h1
      obtain ⟨st1, h2, _, h4⟩ := h1
      rw [h] at h2
      injection h2 with h2
      rw [h2]
      exact h4
  have hl : st.Later st' := by
    have h1 := C69_run hok l'
    cases hx : runV st.read l' with
    | error p =>
      rw [hx] at h1
      rw [show runM st l' = .error p from h1] at h'
      exact absurd h' (by simp)
    | ok v =>
      rw [hx] at h1
      obtain ⟨st1, h2, _, _, h4⟩ := h1
      rw [h'] at h2
      injection h2 with h2
      rw [h2]
      exact h4
  have hobj : ∀ o, st.kg.Owns st.m o → st'.m.obj o = st.m.obj o :=
    fun o ho => funext fun k => hl.same ⟨o, k⟩ ho
  have pre : ∀ {α : Type} {a b : List α} {i : ℕ} {k : α}, a <+: b → a[i]? = some k →
      b[i]? = some k := by
    rintro α a b i k ⟨t, rfl⟩ hk
    obtain ⟨hi, _⟩ := List.getElem?_eq_some_iff.mp hk
    rw [List.getElem?_append_left hi, hk]
  refine ⟨fun i k hk => ⟨pre hl.sks hk, ?_⟩, fun i k hk => ⟨pre hl.pks hk, ?_⟩,
    fun i k hk => ⟨pre hl.rlks hk, ?_⟩, fun i k hk => ⟨pre hl.rots hk, ?_⟩,
    fun i k hk => ⟨pre hl.cjs hk, ?_⟩⟩
  · unfold SkA.read
    rw [hl.same _ (hok.owns _ (KState.mem_objs_sk (List.mem_of_getElem? hk) (by simp [SkA.objs])))]
  · unfold PkA.read
    rw [hl.same _ (hok.owns _ (KState.mem_objs_pk (List.mem_of_getElem? hk) (by simp [PkA.objs]))),
      hl.same _ (hok.owns _ (KState.mem_objs_pk (List.mem_of_getElem? hk) (by simp [PkA.objs])))]
  · have := fun o ho => hobj o (hok.owns _ (KState.mem_objs_rlk (List.mem_of_getElem? hk)
      (o := o) ho))
    unfold RlkA.read
    rw [this k.b (by simp [RlkA.objs]), this k.d (by simp [RlkA.objs]),
      this k.v (by simp [RlkA.objs])]
  · unfold RotA.read
    rw [hobj _ (hok.owns _ (KState.mem_objs_rot (List.mem_of_getElem? hk) (by simp [RotA.objs])))]
  · unfold CjA.read
    rw [hobj _ (hok.owns _ (KState.mem_objs_cj (List.mem_of_getElem? hk) (by simp [CjA.objs])))]

/-! ## The equations of the keys in memory -/

/-- The samples of a command are small. -/
def KCmd.SmallSamples : KCmd C → Prop
  | .genSk s _ => Small C s
  | .genPk _ e => Small C e
  | .genRlk _ _ eb ed ev => ∀ k, Small C (eb k) ∧ Small C (ed k) ∧ Small C (ev k)
  | .genRot _ _ e => ∀ k, Small C (e k)
  | .genCj _ e => ∀ k, Small C (e k)
  | .addCRS _ _ => True

/-- The elements that the reference string had at an index at some time of a session: those of
`NewParameters`, and those of `AddCRS`. -/
def CRSOf (logN : ℕ) (u : ℤ → ℕ → QP C) (l : List (KCmd C)) (idx : ℤ) (a : SwKey C) : Prop :=
  (idx ∈ crsIdxs logN ∧ a = crsVec (u idx)) ∨ ∃ w, KCmd.addCRS idx w ∈ l ∧ a = crsVec w

/-- Every key satisfies its equation, for a secret key of the same user with the same id and an
element that the reference string had (`R`) at the index meant for this kind of key. -/
structure KVal.Sound (R : ℤ → SwKey C → Prop) (v : KVal C) : Prop where
  crs : ∀ i a, v.crs.get? i = some a → R i a
  sks : ∀ k ∈ v.sks, ∃ s, Small C s ∧ IsSK k s
  pks : ∀ k ∈ v.pks, ∃ sk ∈ v.sks, ∃ s e a, IsSK sk s ∧ Small C e ∧ R 0 a ∧
    k.id = sk.id ∧ IsPK k s e ∧ ∀ i < C.nQ, k.value1.Q.row i = (a 0).Q.row i
  rlks : ∀ k ∈ v.rlks, ∃ sk ∈ v.sks, ∃ rk ∈ v.sks, ∃ (s r : Nega C.N ℤ) (a u : SwKey C)
    (eb ed ev : ℕ → Nega C.N ℤ), IsSK sk s ∧ IsSK rk r ∧
    (∀ i, Small C (eb i) ∧ Small C (ed i) ∧ Small C (ev i)) ∧ R 0 a ∧ R (-1) u ∧ k.id = sk.id ∧
    SwEq k.b a s 0 eb ∧ SwEq k.d a r s ed ∧ SwEq k.v u s (-r) fun i => - ev i
  rots : ∀ k ∈ v.rots, ∃ sk ∈ v.sks, ∃ s a e, IsSK sk s ∧ (∀ i, Small C (e i)) ∧
    R k.rotIdx a ∧ k.id = sk.id ∧ SwEq k.value a (Nega.auto (galInv C.N (galCol C.N k.rotIdx)) s) s e
  cjs : ∀ k ∈ v.cjs, ∃ sk ∈ v.sks, ∃ s a e, IsSK sk s ∧ (∀ i, Small C (e i)) ∧
    R (-2) a ∧ k.id = sk.id ∧ SwEq k.value a s (Nega.auto (galRow C.N) s) e

theorem crsVec_len (u : ℕ → QP C) : (crsVec u 0).Q.len = C.nQ := by
  unfold crsVec
  split <;> rfl

theorem KVal.Sound.step (hC : C.Good) (hN : 2 ≤ C.N) {R : ℤ → SwKey C → Prop}
    (hR : ∀ i a, R i a → (a 0).Q.len = C.nQ) {v v' : KVal C} (h : v.Sound R) {c : KCmd C}
    (hadd : ∀ idx w, c = .addCRS idx w → R idx (crsVec w))
    (hc : c.SmallSamples) (hr : c.runV v = .ok v') : v'.Sound R := by
  cases c with
  | genSk s id =>
    injection hr with hr
    subst hr
    have up : ∀ k ∈ v.sks, k ∈ v.sks ++ [GenSecretKey s id] :=
      fun k hk => List.mem_append_left _ hk
    refine ⟨h.crs, fun k hk => ?_, fun k hk => ?_, fun k hk => ?_, fun k hk => ?_, fun k hk => ?_⟩
    · rcases List.mem_append.mp hk with hk | hk
      · exact h.sks k hk
      · obtain rfl : k = _ := by simpa using hk
        exact ⟨s, hc, (C34_secret_key hC hc id).1⟩
    · obtain ⟨sk, h1, h2⟩ := h.pks k hk
      exact ⟨sk, up _ h1, h2⟩
    · obtain ⟨sk, h1, rk, h2, h3⟩ := h.rlks k hk
      exact ⟨sk, up _ h1, rk, up _ h2, h3⟩
    · obtain ⟨sk, h1, h2⟩ := h.rots k hk
      exact ⟨sk, up _ h1, h2⟩
    · obtain ⟨sk, h1, h2⟩ := h.cjs k hk
      exact ⟨sk, up _ h1, h2⟩
  | genPk i e =>
    unfold KCmd.runV at hr
    dsimp only at hr
    cases hi : v.sks[i]? with
    | none => rw [hi] at hr; injection hr with hr; exact hr ▸ h
    | some sk =>
      rw [hi] at hr
      dsimp only at hr
      have hm := List.mem_of_getElem? hi
      obtain ⟨s, _, hsk⟩ := h.sks sk hm
      cases ha : v.crs.get? 0 with
      | none =>
        unfold GenPublicKey at hr
        rw [deref_of_none ha] at hr
        exact absurd hr (by intro h; cases h)
      | some a =>
        obtain ⟨pk, h1, h2, h3⟩ := C34_public_key hC ha (hR _ _ (h.crs _ _ ha)) hc hsk
        have h4 : ∀ i < C.nQ, pk.value1.Q.row i = (a 0).Q.row i := fun i hi => by
          unfold GenPublicKey at h1
          rw [GoMap.deref_of_get? ha] at h1
          injection h1 with h1
          rw [← h1]
          simp only [RPoly.copy, QP.new, RPoly.new, hR _ _ (h.crs _ _ ha), min_self, hi, if_true]
        rw [h1] at hr
        injection hr with hr
        subst hr
        refine ⟨h.crs, h.sks, fun k hk => ?_, h.rlks, h.rots, h.cjs⟩
        rcases List.mem_append.mp hk with hk | hk
        · exact h.pks k hk
        · obtain rfl : k = _ := by simpa using hk
          exact ⟨sk, hm, s, e, a, hsk, hc, h.crs _ _ ha, h2, h3, h4⟩
  | genRlk i j eb ed ev =>
    unfold KCmd.runV at hr
    dsimp only at hr
    cases hi : v.sks[i]? with
    | none => rw [hi] at hr; injection hr with hr; exact hr ▸ h
    | some sk =>
    cases hj : v.sks[j]? with
    | none => rw [hi, hj] at hr; injection hr with hr; exact hr ▸ h
    | some rk =>
      rw [hi, hj] at hr
      dsimp only at hr
      have hm := List.mem_of_getElem? hi
      have hm' := List.mem_of_getElem? hj
      obtain ⟨s, _, hsk⟩ := h.sks sk hm
      obtain ⟨r, _, hrk⟩ := h.sks rk hm'
      cases ha : v.crs.get? 0 with
      | none =>
        unfold GenRelinearizationKey at hr
        rw [if_neg hC.nP_pos.ne', deref_of_none ha] at hr
        exact absurd hr (by intro h; cases h)
      | some a =>
      cases hu : v.crs.get? (-1) with
      | none =>
        unfold GenRelinearizationKey at hr
        rw [if_neg hC.nP_pos.ne', GoMap.deref_of_get? ha, deref_of_none hu] at hr
        exact absurd hr (by intro h; cases h)
      | some u =>
        obtain ⟨rlk, h1, h2, h3, h4, h5⟩ := C34_relin_key hC ha hu hsk hrk
          (fun k => (hc k).1) (fun k => (hc k).2.1) (fun k => (hc k).2.2) (RPoly.new 0) QP.new
        rw [h1] at hr
        injection hr with hr
        subst hr
        refine ⟨h.crs, h.sks, h.pks, fun k hk => ?_, h.rots, h.cjs⟩
        rcases List.mem_append.mp hk with hk | hk
        · exact h.rlks k hk
        · obtain rfl : k = _ := by simpa using hk
          exact ⟨sk, hm, rk, hm', s, r, a, u, eb, ed, ev, hsk, hrk, hc, h.crs _ _ ha,
            h.crs _ _ hu, h2, h3, h4, h5⟩
  | genRot i rotidx e =>
    unfold KCmd.runV at hr
    dsimp only at hr
    cases hi : v.sks[i]? with
    | none => rw [hi] at hr; injection hr with hr; exact hr ▸ h
    | some sk =>
      rw [hi] at hr
      dsimp only at hr
      have hm := List.mem_of_getElem? hi
      obtain ⟨s, _, hsk⟩ := h.sks sk hm
      by_cases hin : v.crs.has rotidx = true
      swap
      · unfold GenRotationKey at hr
        rw [Bool.not_eq_true] at hin
        rw [hin] at hr
        exact absurd hr (by intro h; cases h)
      cases ha : v.crs.get? (normRot (C.N / 2) rotidx) with
      | none =>
        unfold GenRotationKey at hr
        rw [hin] at hr
        simp only [Bool.not_true, Bool.false_eq_true, if_false] at hr
        rw [deref_of_none ha] at hr
        exact absurd hr (by intro h; cases h)
      | some a =>
        obtain ⟨rk, h1, h2, h3, h4⟩ := C34_rotation_key hC hin ha hsk hc (RPoly.new 0)
        rw [h1] at hr
        injection hr with hr
        subst hr
        refine ⟨h.crs, h.sks, h.pks, h.rlks, fun k hk => ?_, h.cjs⟩
        rcases List.mem_append.mp hk with hk | hk
        · exact h.rots k hk
        · obtain rfl : k = _ := by simpa using hk
          have hn : ((k.rotIdx : ℕ) : ℤ) = normRot (C.N / 2) rotidx := by
            rw [h3]
            refine Int.toNat_of_nonneg ?_
            rw [normRot_spec (by omega)]
            split
            · exact Int.emod_nonneg _ (by omega)
            · omega
          exact ⟨sk, hm, s, a, e, hsk, hc, by rw [hn]; exact h.crs _ _ ha, h2,
            by rw [h3]; exact h4⟩
  | genCj i e =>
    unfold KCmd.runV at hr
    dsimp only at hr
    cases hi : v.sks[i]? with
    | none => rw [hi] at hr; injection hr with hr; exact hr ▸ h
    | some sk =>
      rw [hi] at hr
      dsimp only at hr
      have hm := List.mem_of_getElem? hi
      obtain ⟨s, _, hsk⟩ := h.sks sk hm
      cases ha : v.crs.get? (-2) with
      | none =>
        unfold GenConjugationKey at hr
        dsimp only at hr
        rw [deref_of_none ha] at hr
        exact absurd hr (by intro h; cases h)
      | some a =>
        obtain ⟨ck, h1, h2, h3⟩ := C34_conjugation_key hC ha hsk hc (RPoly.new 0)
        rw [h1] at hr
        injection hr with hr
        subst hr
        refine ⟨h.crs, h.sks, h.pks, h.rlks, h.rots, fun k hk => ?_⟩
        rcases List.mem_append.mp hk with hk | hk
        · exact h.cjs k hk
        · obtain rfl : k = _ := by simpa using hk
          exact ⟨sk, hm, s, a, e, hsk, hc, h.crs _ _ ha, h2, h3⟩
  | addCRS idx u =>
    injection hr with hr
    subst hr
    refine ⟨fun i a ha => ?_, h.sks, h.pks, h.rlks, h.rots, h.cjs⟩
    have ha : (v.crs.set idx (crsVec u)).get? i = some a := ha
    rw [GoMap.get?_set] at ha
    split at ha
    · rename_i hi
      injection ha with ha
      rw [← ha, hi]
      exact hadd idx u rfl
    · exact h.crs i a ha

theorem crsLoop_of (u : ℤ → ℕ → QP C) (l : List ℤ) (crs : CRS C) (R : ℤ → SwKey C → Prop)
    (h : ∀ i a, crs.get? i = some a → R i a) (hl : ∀ i ∈ l, R i (crsVec (u i))) (i : ℤ)
    (a : SwKey C) (ha : (crsLoop (fun idx => crsVec (u idx)) crs l).get? i = some a) : R i a := by
  induction l generalizing crs with
  | nil => exact h i a ha
  | cons idx l ih =>
    refine ih (crs.set idx (crsVec (u idx))) (fun i a ha => ?_)
      (fun i hi => hl i (List.mem_cons_of_mem _ hi)) ha
    rw [GoMap.get?_set] at ha
    split at ha
    · rename_i hi
      injection ha with ha
      rw [← ha, hi]
      exact hl idx List.mem_cons_self
    · exact h i a ha

/-- **C69 (the keys in memory satisfy their equations).** After any sequence of key generations
with small samples, every public, relinearisation, rotation and conjugation key satisfies, as it
stands in the memory at the end, its equation for a secret key of the user as it stands in the
memory at the end, and an element of the reference string at the index for this kind of key. -/
theorem C69_sound (hC : C.Good) (hN : 2 ≤ C.N) {logN : ℕ} {u : ℤ → ℕ → QP C} {m : PMem C}
    {l : List (KCmd C)}
    (hl : ∀ c ∈ l, c.SmallSamples) {st : KState C}
    (h : runM (startM logN u m) l = .ok st) : st.read.Sound (CRSOf logN u l) := by
  have hR : ∀ i a, CRSOf logN u l i a → (a 0).Q.len = C.nQ := by
    rintro i a (⟨_, rfl⟩ | ⟨w, _, rfl⟩) <;> exact crsVec_len _
  have key : ∀ (l' : List (KCmd C)) (v v' : KVal C), (∀ c ∈ l', c ∈ l) →
      v.Sound (CRSOf logN u l) → runV v l' = .ok v' → v'.Sound (CRSOf logN u l) := by
    intro l'
    induction l' with
    | nil => intro v v' _ hv hr; injection hr with hr; exact hr ▸ hv
    | cons c l' ih =>
      intro v v' hs hv hr
      unfold runV at hr
      cases hc : c.runV v with
      | error p => rw [hc] at hr; cases hr
      | ok v1 =>
        rw [hc] at hr
        exact ih v1 v' (fun c' hc' => hs c' (List.mem_cons_of_mem _ hc'))
          (hv.step hC hN hR (fun idx w hcw => .inr ⟨w, hcw ▸ hs c List.mem_cons_self, rfl⟩)
            (hl c (hs c List.mem_cons_self)) hc) hr
  have h1 := C69_session logN u m l
  cases hx : runV (startV logN u) l with
  | error p =>
    rw [hx] at h1
    rw [show runM (startM logN u m) l = .error p from h1] at h
    cases h
  | ok v =>
    rw [hx] at h1
    obtain ⟨st1, h2, h3, _⟩ := h1
    rw [h] at h2
    injection h2 with h2
    rw [h2, h3]
    refine key l _ _ (fun _ h => h) ⟨fun i a ha => ?_, by simp [startV], by simp [startV], by simp [startV],
      by simp [startV], by simp [startV]⟩ hx
    exact crsLoop_of u _ _ _ (by simp) (fun i hi => .inl ⟨hi, rfl⟩) i a ha

/-! ## The default rotation keys -/

/-- The contents of a rotation key set. -/
def readRots (s : RotationKeySet RotA) (m : PMem C) : RotationKeySet (RotKey C) :=
  ⟨s.value.mapVals fun _ g => g.mapVals fun _ k => k.read m⟩

/-- The keys of a set are in objects of the caller. -/
def RotsOwned (kg : KG) (s : RotationKeySet RotA) (m : PMem C) : Prop :=
  ∀ e ∈ s.value.entries, ∀ e' ∈ e.2.entries, kg.Owns m e'.2.value

theorem readRots_keeps {kg : KG} {s : RotationKeySet RotA} {m m' : PMem C}
    (h : RotsOwned kg s m) (hk : kg.Keeps m m') : readRots s m' = readRots s m := by
  unfold readRots
  congr 1
  refine mapVals_congr fun e he => mapVals_congr fun e' he' => ?_
  unfold RotA.read
  rw [hk.obj (h e he e' he')]

theorem readRots_add (s : RotationKeySet RotA) (k : RotA) (m : PMem C) :
    readRots (s.add RotA.id RotA.rotIdx k) m =
      (readRots s m).add RotKey.id RotKey.rotIdx (k.read m) := by
  set F : GoMap ℕ RotA → GoMap ℕ (RotKey C) := fun g => g.mapVals fun _ k => k.read m with hF
  have hhas : (s.value.mapVals fun _ => F).has k.id = s.value.has k.id := by
    unfold GoMap.has
    rw [GoMap.get?_mapVals, Option.isSome_map]
  have hv : (if (s.value.mapVals fun _ => F).has k.id then s.value.mapVals fun _ => F
      else (s.value.mapVals fun _ => F).set k.id GoMap.empty) =
      (if s.value.has k.id then s.value else s.value.set k.id GoMap.empty).mapVals fun _ => F := by
    rw [hhas]
    split
    · rfl
    · rw [set_mapVals]
      rfl
  unfold RotationKeySet.add readRots
  dsimp only
  rw [show (k.read m).id = k.id from rfl, show (k.read m).rotIdx = k.rotIdx from rfl,
    show (fun (_ : String) (g : GoMap ℕ RotA) => g.mapVals fun _ k => k.read m) = fun _ => F from
      rfl, hv]
  generalize (if s.value.has k.id then s.value else s.value.set k.id GoMap.empty) = v
  rw [GoMap.get?_mapVals]
  cases v.get? k.id with
  | none => rfl
  | some inner =>
    show (⟨(v.set k.id (inner.set k.rotIdx k)).mapVals fun _ => F⟩ : RotationKeySet (RotKey C)) =
      ⟨(v.mapVals fun _ => F).set k.id ((F inner).set k.rotIdx (k.read m))⟩
    rw [set_mapVals, hF]
    dsimp only
    rw [set_mapVals]

theorem mem_of_get? {K V : Type} [DecidableEq K] {g : GoMap K V} {k : K} {v : V}
    (h : g.get? k = some v) : (k, v) ∈ g.entries := by
  obtain ⟨l₁, l₂, hl, _⟩ := List.lookup_eq_some_iff.mp h
  rw [hl]
  exact List.mem_append_right _ List.mem_cons_self

theorem RotsOwned.add {kg : KG} {s : RotationKeySet RotA} {m : PMem C} (h : RotsOwned kg s m)
    {k : RotA} (hk : kg.Owns m k.value) : RotsOwned kg (s.add RotA.id RotA.rotIdx k) m := by
  unfold RotationKeySet.add
  dsimp only
  have hv : ∀ e ∈ (if s.value.has k.id then s.value else s.value.set k.id GoMap.empty).entries,
      ∀ e' ∈ e.2.entries, kg.Owns m e'.2.value := by
    split
    · exact h
    · intro e he
      rcases mem_set_entries he with he | rfl
      · exact h e he
      · intro e' he'
        exact absurd he' (by simp [GoMap.empty])
  revert hv
  generalize (if s.value.has k.id then s.value else s.value.set k.id GoMap.empty) = v
  intro hv
  cases hg : v.get? k.id with
  | none => exact hv
  | some inner =>
    intro e he
    rcases mem_set_entries he with he | rfl
    · exact hv e he
    · intro e' he'
      rcases mem_set_entries he' with he' | rfl
      · exact hv _ (mem_of_get? hg) e' he'
      · exact hk

theorem genDefaultLoopM_spec {kg : KG} (e : ℕ → ℕ → Nega C.N ℤ) {sk : SkA} (poolQ : RQ C)
    (rotidx : ℕ) (s : RotationKeySet RotA) (m : PMem C) (hw : kg.WF m)
    (hsk : kg.Owns m sk.value.o) (hs : RotsOwned kg s m) :
    match genDefaultLoop (readCRS kg.crs m) poolQ e (sk.read m) rotidx (readRots s m) with
    | .error p => genDefaultLoopM kg e sk rotidx s m = .error p
    | .ok v => ∃ s' m', genDefaultLoopM kg e sk rotidx s m = .ok (s', m') ∧
        readRots s' m' = v ∧ kg.Keeps m m' ∧ RotsOwned kg s' m' := by
  unfold genDefaultLoop genDefaultLoopM
  by_cases hc : rotidx < C.N / 2 ∧ 0 < rotidx
  swap
  · rw [dif_neg hc, dif_neg hc]
    exact ⟨s, m, rfl, rfl, .refl kg m, hs⟩
  rw [dif_pos hc, dif_pos hc]
  have hp := C69_rotation_key hw (e rotidx) rotidx hsk poolQ
  cases hx : GenRotationKey (readCRS kg.crs m) poolQ (e rotidx) rotidx (sk.read m) with
  | error p =>
    rw [hx] at hp
    rw [show GenRotationKeyM kg (e rotidx) rotidx sk m = .error p from hp]
    rfl
  | ok k =>
    rw [hx] at hp
    obtain ⟨k', m1, hy, hr, hk, hn⟩ := hp
    rw [hy]
    have hko : kg.Owns m1 k'.value := by
      have := hn.2 k'.value (by simp [RotA.objs])
      have := hw.poolQ
      have := hw.poolQP
      refine ⟨?_, ?_, ?_⟩ <;> omega
    have hs1 : RotsOwned kg s m1 := fun a ha b hb => (hs a ha b hb).mono hk.1
    have ih := genDefaultLoopM_spec e poolQ (rotidx * 2) (s.add RotA.id RotA.rotIdx k') m1
      (hw.mono hk.1) (hsk.mono hk.1) (hs1.add hko)
    rw [readRots_add, readRots_keeps hs hk, hr, readCRS_keeps hw hk,
      show sk.read m1 = sk.read m by unfold SkA.read; rw [hk.2 _ hsk]] at ih
    show match genDefaultLoop (readCRS kg.crs m) poolQ e (sk.read m) (rotidx * 2)
        ((readRots s m).add RotKey.id RotKey.rotIdx k) with
      | .error p => genDefaultLoopM kg e sk (rotidx * 2) (s.add RotA.id RotA.rotIdx k') m1 = .error p
      | .ok v => ∃ s' m', genDefaultLoopM kg e sk (rotidx * 2) (s.add RotA.id RotA.rotIdx k') m1 =
          .ok (s', m') ∧ readRots s' m' = v ∧ kg.Keeps m m' ∧ RotsOwned kg s' m'
    cases hx2 : genDefaultLoop (readCRS kg.crs m) poolQ e (sk.read m) (rotidx * 2)
        ((readRots s m).add RotKey.id RotKey.rotIdx k) with
    | error p => rw [hx2] at ih; exact ih
    | ok v =>
      rw [hx2] at ih
      obtain ⟨s', m', h1, h2, h3, h4⟩ := ih
      exact ⟨s', m', h1, h2, hk.trans h3, h4⟩
termination_by C.N / 2 - rotidx
decreasing_by omega

/-- **C69 (default rotation keys).** `GenDefaultRotationKeys` on memory fills the set as on
values; the keys already in the set, and all other objects of the caller, are unchanged. -/
theorem C69_default_rotation_keys {kg : KG} {m : PMem C} (hw : kg.WF m)
    (e : ℕ → ℕ → Nega C.N ℤ) {sk : SkA} (hsk : kg.Owns m sk.value.o) (poolQ : RQ C)
    {s : RotationKeySet RotA} (hs : RotsOwned kg s m) :
    match GenDefaultRotationKeys (readCRS kg.crs m) poolQ e (sk.read m) (readRots s m) with
    | .error p => genDefaultLoopM kg e sk 1 s m = .error p
    | .ok v => ∃ s' m', genDefaultLoopM kg e sk 1 s m = .ok (s', m') ∧
        readRots s' m' = v ∧ kg.Keeps m m' ∧ RotsOwned kg s' m' :=
  genDefaultLoopM_spec e poolQ 1 s m hw hsk hs

end MK
