import Verif.Proof.Heap.StoreScripts
import Verif.Props.C56_Scripts
/-!
# C57: scripts that a type checker accepts

`Verif/Spec/TypedScripts.lean` says what a type checker for the classes of this package accepts: attributes that the classes declare, values that
suit the annotations, lists whose elements have one type.  Objects may be shared in any way.  Such a script meets no `TypeError` and no
`AttributeError`; what it knows always has the types it thinks; and every `DatFile` it saves is written as a file that consists of the declared fields.
-/

namespace Genie

open ObjTree

/-- One action that a type checker accepts: its answer has the right type and every object known keeps its type; or it raises one of the exceptions
that the kind of action can raise and changes no object; or the machine crashed while a file was saved. -/
theorem C57_action (z : Zlib) (env : Environment) (depth : Nat) (hn : 5 ≤ depth) (S : Situation Memory) (types : List Ann)
    (h : S.memory.Typed (Declares false) types) (act : Action) (ρ : Ann) (ha : act.Typed (Declares false) types ρ) :
    (∃ v, (S.act z env depth act).1 = .returned v ∧ v.Suits types.length ρ ∧
        (S.act z env depth act).2.memory.Typed (Declares false) (extend types ρ v)) ∨
      (∃ e, (S.act z env depth act).1 = .raised e ∧ act.MayRaise e ∧ (S.act z env depth act).2.memory = S.memory) ∨
      ((S.act z env depth act).1 = .crashed ∧ ∃ o p, act = .save o p) :=
  Situation.act_typed z env hn h ha

/-- It raises neither `TypeError` nor `AttributeError`. -/
theorem C57_no_type_error (z : Zlib) (env : Environment) (depth : Nat) (hn : 5 ≤ depth) (S : Situation Memory) (types : List Ann)
    (h : S.memory.Typed (Declares false) types) (act : Action) (ρ : Ann) (ha : act.Typed (Declares false) types ρ) :
    (S.act z env depth act).1 ≠ .raised .typeError ∧ (S.act z env depth act).1 ≠ .raised .attributeError := by
  rcases Situation.act_typed z env hn h ha with ⟨v, h1, _⟩ | ⟨e, h1, h2, _⟩ | ⟨h1, _⟩
  · rw [h1]; exact ⟨nofun, nofun⟩
  · rw [h1]
    have := Action.raises_nothing_else h2
    exact ⟨fun e => this.1 (Outcome.raised.inj e), fun e => this.2 (Outcome.raised.inj e)⟩
  · rw [h1]; exact ⟨nofun, nofun⟩

/-- Whatever a script has done so far: what it knows has the types it thinks. -/
theorem C57_script (P : Script σ α) (T : σ → List Ann → Prop) (hP : P.Typed (Declares false) T) (z : Zlib) (env : Nat → Environment) (depth : Nat)
    (hn : 5 ≤ depth) (st : σ) (S : Situation Memory) (types : List Ann) (ht : T st types) (hS : S.memory.Typed (Declares false) types) (n : Nat)
    (st' : σ) (S' : Situation Memory) (hm : P.run z env depth n (.running st S) = .running st' S') :
    ∃ types', T st' types' ∧ S'.memory.Typed (Declares false) types' :=
  Script.typed hP z env hn ht hS n hm

/-- Whatever is in memory, a script that knows nothing yet is right about all it knows. -/
theorem C57_start (H : Heap) : Memory.Typed (Declares false) ⟨H, []⟩ [] :=
  ⟨fun _ => Option.none, (fun _ _ e => by cases e), rfl, fun _ _ e => by cases e⟩

/-- What a type means: the object is a tree of values, and the tree has that type in the sense of C48. -/
theorem C57_types_mean (M : Memory) (types : List Ann) (h : M.Typed (Declares false) types) (o : Nat) (a : Ann) (ho : types[o]? = some a) :
    ∃ t fp, Rep M.heap (named M.names o) t fp ∧ Suits (Declares false) a t := by
  obtain ⟨f, hf, hl, hn⟩ := h
  obtain ⟨b, h1, h2⟩ := hn o _ ho
  have e : named M.names o = .ref b := by unfold named; rw [h1]; rfl
  rw [e]
  exact hf.value Declares.reach _ (Nat.le_refl _) (.ref h2)

/-- What is saved: a `DatFile`, even one whose parts are shared, is written as the file with its values. -/
theorem C57_saved (M : Memory) (types : List Ann) (h : M.Typed (Declares false) types) (o : Nat) (ho : types[o]? = some (.cls (lit "DatFile"))) :
    ∃ (d : DatFile) (t : ObjTree) (fp : List Nat), Rep M.heap (named M.names o) t fp ∧ d.Lengths ∧ Converts t (d.object false) ∧
      ∀ (z : Zlib) (env : Environment) (disk : FileSystem) (depth : Nat) (p : Path), 5 ≤ depth →
        W.save z env disk M.heap depth (named M.names o) p = d.save z env disk p := by
  obtain ⟨d, t, fp, h1, h2, h3, _, h5⟩ := h.file ho
  refine ⟨d, t, fp, h1, h2, h3, fun z env disk depth p hn => ?_⟩
  unfold W.save DatFile.save
  rw [h5 depth hn]
  rfl

/-- No class is nested more than nine deep. -/
theorem rankOf_le (c : PyStr) : rankOf c ≤ 9 := by
  have all : ∀ x ∈ classRanks, x.2 ≤ 9 := by decide +kernel
  unfold rankOf
  cases e : classRanks.find? fun x => x.1 = c with
  | none => exact Nat.zero_le _
  | some x => exact all x (List.mem_of_find?_eq_some e)

/-- With room for nine nested calls, a deep copy of an instance of a class of this package does not fail, however its parts are shared; the copy is
an instance of the same class. -/
theorem C57_deepcopy (M : Memory) (types : List Ann) (h : M.Typed (Declares false) types) (o : Nat) (c : PyStr) (ho : types[o]? = some (.cls c))
    (depth : Nat) (hn : 9 ≤ depth) (s : ByteHandler) :
    (M.op depth s (.deepcopy o)).1 = .ok (.object types.length (.instance c)) ∧
      (M.op depth s (.deepcopy o)).2.Typed (Declares false) (types ++ [.cls c]) := by
  rcases Memory.op_typed Declares.oneDef Declares.reach h (.deepcopy ho) depth s with ⟨v, h1, h2, h3⟩ | ⟨e, h1, h2⟩
  · cases h2
    exact ⟨h1, h3⟩
  · exfalso
    obtain ⟨f, hf, hl, hnm⟩ := h
    obtain ⟨b, k1, k2⟩ := hnm o _ ho
    have eb : named M.names o = .ref b := by unfold named; rw [k1]; rfl
    rcases hf.deepcopy Declares.reach (.ref k2) depth s with ⟨_, lt⟩ | ⟨H', M', w, g, e1, _⟩
    · have lt : depth < rankOf c := lt
      have := rankOf_le c
      omega
    · have e2 : (Op.deepcopy o).eval depth M.names M.heap s = .ok (w, H', s) := by
        show (HReader.deepcopy depth (named M.names o) [] >>= fun x => pure x.1) M.heap s = _
        rw [eb]
        exact HReader.bind_ok e1
      unfold Memory.op at h1
      rw [e2] at h1
      cases h1

/-- The files, when no write fails: after any number of actions each is the one that was there, or one that was written for a `DatFile` that
consists of the declared fields. -/
theorem C57_files (P : Script σ α) (T : σ → List Ann → Prop) (hP : P.Typed (Declares false) T) (z : Zlib) (env : Nat → Environment)
    (hf : ∀ i, (env i).fault = Option.none) (depth : Nat) (hn : 5 ≤ depth) (st : σ) (S : Situation Memory) (types : List Ann) (ht : T st types)
    (hS : S.memory.Typed (Declares false) types) (n : Nat) :
    ∃ st' S', P.run z env depth n (.running st S) = .running st' S' ∧
      ∀ p, S'.disk p = S.disk p ∨ ∃ (d : DatFile) (bs : Bytes), d.Lengths ∧ d.toBytes = .ok bs ∧ S'.disk p = some (z.compress bs) := by
  induction n with
  | zero => exact ⟨st, S, rfl, fun _ => .inl rfl⟩
  | succ n ih =>
    obtain ⟨st1, S1, e, hd⟩ := ih
    obtain ⟨types1, ht1, hS1⟩ := Script.typed hP z env hn ht hS n e
    show ∃ st' S', P.step z (env n) depth (P.run z env depth n (.running st S)) = .running st' S' ∧ _
    rw [e]
    unfold Script.step
    dsimp only
    cases e1 : P st1 with
    | stop r => exact ⟨st1, S1, rfl, hd⟩
    | call a next =>
      dsimp only
      obtain ⟨ρ, ha, _, _⟩ := hP st1 types1 a next ht1 e1
      have disk : ∀ p, (S1.act z (env n) depth a).2.disk p = S1.disk p ∨
          ∃ (d : DatFile) (bs : Bytes), d.Lengths ∧ d.toBytes = .ok bs ∧ (S1.act z (env n) depth a).2.disk p = some (z.compress bs) := by
        intro p
        cases ha with
        | @op o _ ho =>
          left
          unfold Situation.act
          dsimp only
          split <;> rfl
        | @parse q =>
          left
          unfold Situation.act
          dsimp only
          split <;> rfl
        | @save o q ho =>
          obtain ⟨d, t, fp, _, h2, _, h4, h5⟩ := hS1.file ho
          unfold Situation.act
          dsimp only
          rw [if_pos h4]
          unfold W.save
          rw [h5 depth hn]
          cases e2 : d.toBytes with
          | error x => exact .inl rfl
          | ok bs =>
            dsimp only
            unfold writeBytes
            rw [hf n]
            dsimp only
            rw [runOps_all]
            by_cases hp : p = q
            · right
              exact ⟨d, bs, h2, e2, if_pos hp⟩
            · left
              exact if_neg hp
      have all : ∀ p, (S1.act z (env n) depth a).2.disk p = S.disk p ∨
          ∃ (d : DatFile) (bs : Bytes), d.Lengths ∧ d.toBytes = .ok bs ∧ (S1.act z (env n) depth a).2.disk p = some (z.compress bs) := by
        intro p
        rcases disk p with h | h
        · rw [h]; exact hd p
        · exact .inr h
      rcases Situation.act_typed z (env n) hn hS1 ha with ⟨v, h1, _⟩ | ⟨x, h1, _⟩ | ⟨h1, o, q, rfl⟩
      · cases e3 : S1.act z (env n) depth a with
        | mk r S2 =>
          rw [e3] at h1 all
          cases h1
          exact ⟨_, _, rfl, all⟩
      · cases e3 : S1.act z (env n) depth a with
        | mk r S2 =>
          rw [e3] at h1 all
          cases h1
          exact ⟨_, _, rfl, all⟩
      · exfalso
        revert h1
        unfold Situation.act W.save writeBytes
        dsimp only
        rw [hf n]
        dsimp only
        split
        · cases W.toBytes S1.memory.heap depth (named S1.memory.names o) .UNDEFINED <;> exact nofun
        · exact nofun

/-- A program, from beginning to end. -/
theorem C57_program (z : Zlib) (env : Nat → Environment) (depth : Nat) (hn : 5 ≤ depth) (Q : List Ann → α → Prop) (p : Prog α) (i : Nat)
    (S : Situation Memory) (types : List Ann) (hp : p.Typed (Declares false) Q types) (h : S.memory.Typed (Declares false) types) :
    match p.exec z env depth i S with
    | (.returned a, _, S') => ∃ types', Q types' a ∧ S'.memory.Typed (Declares false) types'
    | (.raised e, _, S') => e ≠ .typeError ∧ e ≠ .attributeError ∧ ∃ types', S'.memory.Typed (Declares false) types'
    | (.crashed, _, _) => True :=
  Prog.typed_exec z env hn p i S types hp h

/-! ## examples -/

/-- The loop of C56 with its types: a list of numbers. -/
example : Sample.popAll.Typed (Declares false) fun st types => (st = 0 ∧ types = []) ∨ (0 < st ∧ types = [.list .int]) := by
  rintro st types a next (⟨rfl, rfl⟩ | ⟨h0, rfl⟩) e
  · cases e
    refine ⟨.list .int, .op (.newList ?_), ?_, nofun⟩
    · intro v hv
      rcases List.mem_cons.1 hv with rfl | hv
      · exact .int _
      · rcases List.mem_cons.1 hv with rfl | hv
        · exact .int _
        · cases hv
    · intro v hv
      cases hv
      exact .inr ⟨by decide, rfl⟩
  · match st, h0, e with
    | 1, _, e =>
      cases e
      refine ⟨.int, .op (.pop rfl), ?_, fun e he => .inr ⟨Nat.succ_pos _, rfl⟩⟩
      intro v hv
      cases hv
      exact .inr ⟨Nat.succ_pos _, rfl⟩
    | n + 2, _, e => cases e

/-- `data.effects.append(data.effects[0])`, and then `data.effects[-1].name = 'x'`: the effect is twice in the list, and both change. -/
def Sample.twice (src dst : Path) : Prog PUnit := do
  let data ← Prog.parse src
  let effects ← Prog.object (.getAttr data (lit "effects"))
  let e ← Prog.object (.getItem effects 0)
  Prog.statement (.append effects (.object e))
  let e ← Prog.object (.getItem effects (-1))
  Prog.statement (.setAttr e (lit "name") (.str (lit "x")))
  Prog.save data dst

theorem Prog.Typed.parse {D : PyStr → List (PyStr × Ann) → Prop} {types : List Ann} {p : Path} :
    (Prog.parse p).Typed D (fun ts x => x = types.length ∧ ts = types ++ [.cls (lit "DatFile")]) types := by
  refine (Prog.Typed.call .parse).then fun ts v ⟨hv, e⟩ => ?_
  subst e
  cases hv
  exact .done ⟨rfl, rfl⟩

theorem Prog.Typed.save {D : PyStr → List (PyStr × Ann) → Prop} {types : List Ann} {o : Nat} {p : Path}
    (h : types[o]? = some (.cls (lit "DatFile"))) : (Prog.save o p).Typed D (fun ts _ => ts = types) types := by
  refine (Prog.Typed.call (.save h)).then fun ts v ⟨hv, e⟩ => ?_
  rw [hv.nothing] at e
  exact .done e

theorem Prog.Typed.update {D : PyStr → List (PyStr × Ann) → Prop} {types : List Ann} {o : Nat} {c n : PyStr} {fs : List (PyStr × Ann)} {f : Int → Int}
    (h : types[o]? = some (.cls c)) (hd : D c fs) (ha : annOf n fs = some .int) : (Prog.update o n f).Typed D (fun ts _ => ts = types) types := by
  refine (Prog.Typed.int (.getAttr h hd ha)).then fun ts v e => ?_
  subst e
  exact .statement (.setAttr h hd ha (.int _))

/-- A type checker accepts it. -/
theorem Sample.twice_typed (src dst : Path) : (Sample.twice src dst).Typed (Declares false) (fun _ _ => True) [] := by
  refine Prog.Typed.parse.then fun ts x ⟨e, e'⟩ => ?_
  subst e e'
  refine (Prog.Typed.object (ρ := .list (.cls (lit "Effect"))) (.getAttr rfl .DatFile rfl) (.inl ⟨_, rfl⟩)).then fun ts x ⟨e, e'⟩ => ?_
  subst e e'
  refine (Prog.Typed.object (.getItem rfl) (.inr (.inr ⟨_, rfl⟩))).then fun ts x ⟨e, e'⟩ => ?_
  subst e e'
  refine (Prog.Typed.statement (.append rfl (.object rfl))).then fun ts x e => ?_
  subst e
  refine (Prog.Typed.object (.getItem rfl) (.inr (.inr ⟨_, rfl⟩))).then fun ts x ⟨e, e'⟩ => ?_
  subst e e'
  refine (Prog.Typed.statement (.setAttr rfl .Effect rfl (.str _))).then fun ts x e => ?_
  subst e
  exact (Prog.Typed.save rfl).weaken fun _ _ _ => trivial

/-- The program of C56 that changes the hit points of all units, too. -/
theorem Prog.hitPoints_typed (f : Int → Int) (src dst : Path) :
    (Prog.loadChangeSave (Prog.hitPoints f) src dst).Typed (Declares false) (fun _ _ => True) [] := by
  refine Prog.Typed.parse.then fun ts x ⟨e, e'⟩ => ?_
  subst e e'
  refine Prog.Typed.then (Q := fun ts _ => [Ann.cls (lit "DatFile")] <+: ts) ?_ fun ts _ hts => ?_
  · refine (Prog.Typed.object (ρ := .list (.cls (lit "Civ"))) (.getAttr rfl .DatFile rfl) (.inl ⟨_, rfl⟩)).then fun ts x ⟨e, e'⟩ => ?_
    subst e e'
    refine (Prog.Typed.forEach (base := [.cls (lit "DatFile"), .list (.cls (lit "Civ"))]) (b := .cls (lit "Civ")) rfl rfl (.inl rfl)
      (fun c ts hts hc => ?_) (List.prefix_refl _)).weaken fun _ _ h => (List.prefix_append _ _).trans h
    refine (Prog.Typed.object (ρ := .list (.opt (.cls (lit "Unit")))) (.getAttr hc .Civ rfl) (.inl ⟨_, rfl⟩)).then fun ts' x ⟨e, e'⟩ => ?_
    subst e e'
    refine (Prog.Typed.forEach (base := ts ++ [.list (.opt (.cls (lit "Unit")))]) (b := .cls (lit "Unit")) List.getElem?_concat_length rfl (.inr rfl)
      (fun u ts' hts' hu => ?_) (List.prefix_refl _)).weaken fun _ _ h => hts.trans ((List.prefix_append _ _).trans h)
    refine (Prog.Typed.update hu .Unit rfl).weaken fun _ _ e => ?_
    subst e
    exact hts'
  · obtain ⟨u, rfl⟩ := hts
    exact (Prog.Typed.save rfl).weaken fun _ _ _ => trivial

/-- So neither ever ends in a `TypeError`, on any file and any disk. -/
example (f : Int → Int) (z : Zlib) (env : Nat → Environment) (H : Heap) (disk : FileSystem) (src dst : Path) :
    ((Prog.loadChangeSave (Prog.hitPoints f) src dst).exec z env 5 0 ⟨disk, ⟨H, []⟩⟩).1 ≠ .raised .typeError := by
  have := C57_program z env 5 (Nat.le_refl _) _ _ 0 ⟨disk, ⟨H, []⟩⟩ [] (Prog.hitPoints_typed f src dst) (C57_start H)
  intro e
  split at this
  · next h => rw [h] at e; cases e
  · next h => rw [h] at e; cases e; exact this.1 rfl
  · next h => rw [h] at e; cases e

end Genie
