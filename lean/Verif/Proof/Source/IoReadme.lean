import Verif.Proof.Source.IoFunctions
/-!
# The programs of the README, from their source
-/

namespace Genie.Src

/-! ## attributes that no class has as a method -/

/-- No class of the package has a function of this name. -/
def NoFunction (f : Name) : Prop := ∀ d ∈ classes, findFun f d.funs = none

theorem Grows.package {H H' : Heap} (g : Grows H H') (hk : OfPackage H) : OfPackage H' := by
  intro a cls attrs ha
  cases hb : H[a]? with
  | none => exact g.new a cls attrs hb ha
  | some d =>
    obtain ⟨e, h1, h2⟩ := g.old a _ hb
    rw [ha] at h1
    cases h1
    cases d with
    | record c' at' => cases h2; exact hk a _ _ hb
    | _ => exact h2.elim

theorem NoFunction.method {f : Name} (h : NoFunction f) (c : Name) : method c f = none := by
  unfold Src.method
  cases hc : findCls c classes with
  | none => rfl
  | some d =>
    dsimp only
    rw [h d (findCls_mem hc)]
    dsimp only
    cases hb : findCls d.base classes with
    | none => rfl
    | some b =>
      dsimp only
      rw [h b (findCls_mem hb)]

/-! ## running like a program of the model -/

/-- `f` does what `g` does, and what was allowed to be different (`TypeError`) does not matter. -/
def RunsAt (R : β → α → Prop) (f : IM α) (g : HReader β) (w : World) : Prop :=
  match g w.heap (ByteHandler.new []) with
  | .ok (b, H, s) => s = ByteHandler.new [] ∧ (∃ a, R b a ∧ f w = ({ w with heap := H }, .returned a)) ∧ (OfPackage w.heap → OfPackage H)
  | .error e => e = .typeError ∨ ∃ H, f w = ({ w with heap := H }, .raised e)

/-- From everywhere. -/
def Runs (R : β → α → Prop) (f : IM α) (g : HReader β) : Prop := ∀ w : World, RunsAt R f g w

/-- The value of an expression is an object. -/
def IsObj (v : HVal) (u : IVal) : Prop := u = .p (.h v)

theorem bind_run (g : HReader α) (h : α → HReader β) (H : Heap) (s : ByteHandler) :
    (g >>= h) H s = match g H s with
      | .error e => .error e
      | .ok (a, H', s') => h a H' s' := rfl

theorem cell_run (x : Nat) (e : PyErr) (H : Heap) (s : ByteHandler) :
    HReader.cell (.ref x) e H s = match H[x]? with
      | some c => .ok (c, H, s)
      | none => .error e := rfl

theorem item_run (x i : Nat) (H : Heap) :
    W.item H (.ok (.ref x)) i = match H[x]? with
      | some (.list items) | some (.tuple items) =>
        match items[i]? with
        | some v => .ok v
        | none => .error .indexError
      | _ => .error .typeError := rfl

theorem Runs.bind {R : β → α → Prop} {f : IM α} {g : HReader β} (hf : Runs R f g) {S : δ → γ → Prop} {k : α → IM γ} {h : β → HReader δ}
    (hk : ∀ b a, R b a → Runs S (k a) (h b)) : Runs S (IM.andThen f k) (g >>= h) := by
  intro w
  have h1 := hf w
  unfold RunsAt at h1 ⊢
  rw [bind_run]
  cases hg : g w.heap (ByteHandler.new []) with
  | error e =>
    rw [hg] at h1
    dsimp only at h1 ⊢
    rcases h1 with h1 | ⟨H, h1⟩
    · exact .inl h1
    · exact .inr ⟨H, IM.andThen_raised h1⟩
  | ok r =>
    obtain ⟨b, H, s⟩ := r
    rw [hg] at h1
    obtain ⟨rfl, ⟨a, ha, h1⟩, hp⟩ := h1
    dsimp only
    have h2 := hk b a ha { w with heap := H }
    unfold RunsAt at h2
    dsimp only at h2
    cases hh : h b H (ByteHandler.new []) with
    | error e =>
      rw [hh] at h2
      dsimp only at h2 ⊢
      rcases h2 with h2 | ⟨H', h2⟩
      · exact .inl h2
      · exact .inr ⟨H', (IM.andThen_ok h1).trans h2⟩
    | ok r =>
      obtain ⟨b', H', s'⟩ := r
      rw [hh] at h2
      obtain ⟨h3, ⟨a', ha', h4⟩, h5⟩ := h2
      exact ⟨h3, ⟨a', ha', (IM.andThen_ok h1).trans h4⟩, fun hk => h5 (hp hk)⟩

theorem Runs.done {R : β → α → Prop} {a : α} {b : β} (h : R b a) : Runs R (.done a) (pure b : HReader β) := fun _ => ⟨rfl, ⟨a, h, rfl⟩, id⟩

/-- Something that only looks at the objects, then something else. -/
theorem Runs.after {f : IM α} {a : α} (hf : ∀ w, f w = (w, .returned a)) {S : δ → γ → Prop} {k : α → IM γ} {h : HReader δ} (hk : Runs S (k a) h) :
    Runs S (IM.andThen f k) h := by
  intro w
  unfold RunsAt
  rw [IM.andThen_ok (hf w)]
  exact hk w

theorem Runs.attr {room : Nat} (o : HVal) (a : Name) (name : PyStr) (ha : NoFunction a) (hn : Name.str a = name) :
    Runs IsObj (attrIo room (.p (PVal.h o)) a) (HReader.getAttr o name) := by
  subst hn
  intro w
  have hp : propertyOf w.heap o a = none := by
    unfold propertyOf
    cases W.cell w.heap o with
    | none => rfl
    | some c =>
      cases c with
      | record c attrs => dsimp only; rw [ha.method]
      | _ => rfl
  have h1 : ∀ v, W.attr w.heap o (Name.str a) = .ok v → attrIo room (.p (.h o)) a w = (w, .returned (IVal.p (PVal.h v))) := by
    intro v hv
    refine IM.andThen_ok (object_ok (a := PVal.h v) (H := w.heap) (s' := ByteHandler.new []) ?_)
    show objAttr _ _ _ _ _ = _
    unfold objAttr
    rw [hp]
    dsimp only
    rw [hv]
  have h2 : ∀ e, W.attr w.heap o (Name.str a) = .error e → attrIo room (.p (.h o)) a w = (w, .raised e) := by
    intro e he
    refine IM.andThen_raised (object_error ?_)
    show objAttr _ _ _ _ _ = _
    unfold objAttr
    rw [hp]
    dsimp only
    rw [he]
  have h3 : HReader.getAttr o (Name.str a) w.heap (ByteHandler.new []) =
      match W.attr w.heap o (Name.str a) with
      | .ok v => .ok (v, w.heap, ByteHandler.new [])
      | .error e => .error e := by
    unfold W.attr W.cell
    cases o with
    | ref x =>
      unfold HReader.getAttr
      rw [bind_run, cell_run]
      dsimp only
      cases w.heap[x]? with
      | none => rfl
      | some c =>
        cases c with
        | record c attrs =>
          dsimp only
          cases HReader.lookup (Name.str a) attrs <;> rfl
        | _ => rfl
    | _ => rfl
  unfold RunsAt
  rw [h3]
  cases hw : W.attr w.heap o (Name.str a) with
  | ok v => exact ⟨rfl, ⟨_, rfl, h1 v hw⟩, id⟩
  | error e => exact .inr ⟨w.heap, h2 e hw⟩

theorem Runs.index (o : HVal) (i : Nat) :
    Runs IsObj (IM.andThen (object (indexM (.h o) (.h (.int i)))) fun r => IM.done (IVal.p r)) (HReader.getItem o i) := by
  intro w
  have hi : ∀ {p : Py HVal}, W.item w.heap (.ok o) i = p → indexM (.h o) (.h (.int i)) w.heap (ByteHandler.new []) =
      match p with
      | .ok v => .ok (.h v, w.heap, ByteHandler.new [])
      | .error e => .error e := by
    intro p hp
    have : ¬((i : Int) < 0) := by omega
    unfold indexM
    dsimp only
    rw [if_neg this, Int.toNat_natCast]
    unfold Src.andThen heapM
    dsimp only
    rw [hp]
    cases p <;> rfl
  have step : ∀ p : Py HVal, W.item w.heap (.ok o) i = p → HReader.getItem o i w.heap (ByteHandler.new []) =
      (match p with
      | .ok v => .ok (v, w.heap, ByteHandler.new [])
      | .error e => .error e) → 
      RunsAt IsObj (IM.andThen (object (indexM (.h o) (.h (.int i)))) fun r => IM.done (IVal.p r)) (HReader.getItem o i) w := by
    intro p hp hg
    unfold RunsAt
    rw [hg]
    have := hi hp
    cases p with
    | ok v => exact ⟨rfl, ⟨_, rfl, IM.andThen_ok (object_ok this)⟩, id⟩
    | error e => exact .inr ⟨w.heap, IM.andThen_raised (object_error this)⟩
  cases o with
  | ref x =>
    refine step _ rfl ?_
    unfold HReader.getItem
    rw [bind_run, cell_run, item_run]
    cases w.heap[x]? with
    | none => rfl
    | some c =>
      cases c with
      | list items => dsimp only; cases items[i]? <;> rfl
      | tuple items => dsimp only; cases items[i]? <;> rfl
      | record c attrs => rfl
  | str s => exact .inl rfl
  | _ => exact step _ rfl rfl

/-- An operation on objects. -/
theorem Runs.object {f : HReader α} (hs : ∀ H s a H' s', f H s = .ok (a, H', s') → s' = s) (hk : Keeps f) : Runs Eq (Src.object f) f := by
  intro w
  unfold RunsAt
  cases h : f w.heap (ByteHandler.new []) with
  | error e => exact .inr ⟨w.heap, object_error h⟩
  | ok r =>
    obtain ⟨a, H, s⟩ := r
    exact ⟨hs _ _ _ _ _ h, ⟨a, rfl, object_ok h⟩, (hk _ _ _ _ _ h).package⟩

theorem HReader_cell_handler {o : HVal} {e : PyErr} {H H' : Heap} {s s' : ByteHandler} {c : Cell} (h : HReader.cell o e H s = .ok (c, H', s')) :
    ∃ a, o = .ref a ∧ H[a]? = some c ∧ H' = H ∧ s' = s := by
  cases o with
  | ref a =>
    rw [cell_run] at h
    cases hc : H[a]? with
    | none => rw [hc] at h; cases h
    | some d => rw [hc] at h; cases h; exact ⟨a, rfl, hc, rfl, rfl⟩
  | _ => cases h

theorem HReader_len (o : HVal) (H : Heap) (s : ByteHandler) (a : Nat) (H' : Heap) (s' : ByteHandler) (h : HReader.len o H s = .ok (a, H', s')) :
    H' = H ∧ s' = s := by
  unfold HReader.len at h
  obtain ⟨c, H1, s1, h1, h2⟩ := HReader_bind h
  obtain ⟨x, rfl, hc, rfl, rfl⟩ := HReader_cell_handler h1
  cases c <;> cases h2
  all_goals exact ⟨rfl, rfl⟩

theorem HReader_getItem (o : HVal) (i : Nat) (H : Heap) (s : ByteHandler) (a : HVal) (H' : Heap) (s' : ByteHandler) (h : HReader.getItem o i H s = .ok (a, H', s')) :
    H' = H ∧ s' = s := by
  unfold HReader.getItem at h
  obtain ⟨c, H1, s1, h1, h2⟩ := HReader_bind h
  obtain ⟨x, rfl, hc, rfl, rfl⟩ := HReader_cell_handler h1
  cases c with
  | list items =>
    dsimp only at h2
    cases hi : items[i]? with
    | none => rw [hi] at h2; cases h2
    | some v => rw [hi] at h2; cases h2; exact ⟨rfl, rfl⟩
  | tuple items =>
    dsimp only at h2
    cases hi : items[i]? with
    | none => rw [hi] at h2; cases h2
    | some v => rw [hi] at h2; cases h2; exact ⟨rfl, rfl⟩
  | record c attrs => cases h2

theorem Keeps.pop (o : HVal) : Keeps (HReader.pop o) ∧ ∀ H s a H' s', HReader.pop o H s = .ok (a, H', s') → s' = s := by
  refine ⟨?_, ?_⟩ <;> intro H s w H' s' h
  all_goals
    unfold HReader.pop at h
    obtain ⟨c, H1, s1, h1, h2⟩ := HReader_bind h
    obtain ⟨a, rfl, hc, rfl, rfl⟩ := HReader_cell_handler h1
    cases c with
    | list items =>
      dsimp only at h2
      by_cases hi : items = []
      · rw [if_pos hi] at h2; cases h2
      · rw [if_neg hi] at h2
        cases h2
        first | exact .set _ a _ _ hc trivial | rfl
    | _ => cases h2

theorem setAttr_handler (o : HVal) (n : PyStr) (v : HVal) (H : Heap) (s : ByteHandler) (a : PUnit) (H' : Heap) (s' : ByteHandler)
    (h : HReader.setAttr o n v H s = .ok (a, H', s')) : s' = s := by
  unfold HReader.setAttr at h
  obtain ⟨c, H1, s1, h1, h2⟩ := HReader_bind h
  obtain ⟨a, rfl, hc, rfl, rfl⟩ := HReader_cell_handler h1
  cases c with
  | record cls attrs =>
    dsimp only at h2
    cases hl : HReader.lookup n attrs with
    | some x =>
      rw [hl] at h2
      cases h2
      rfl
    | none =>
      rw [hl] at h2
      dsimp only at h2
      by_cases ho : HReader.ofClass n = true
      · rw [if_pos ho] at h2; cases h2
      · rw [if_neg ho] at h2
        cases h2
        rfl
  | _ => cases h2

theorem Runs.len (o : HVal) : Runs Eq (Src.object (HReader.len o)) (HReader.len o) :=
  .object (fun H s a H' s' h => (HReader_len o H s a H' s' h).2) (fun H s a H' s' h => by rw [(HReader_len o H s a H' s' h).1]; exact .refl H)

theorem Runs.getItem (o : HVal) (i : Nat) : Runs Eq (Src.object (HReader.getItem o i)) (HReader.getItem o i) :=
  .object (fun H s a H' s' h => (HReader_getItem o i H s a H' s' h).2) (fun H s a H' s' h => by rw [(HReader_getItem o i H s a H' s' h).1]; exact .refl H)

theorem Runs.setAttr (o : HVal) (n : PyStr) (v : HVal) : Runs Eq (Src.object (HReader.setAttr o n v)) (HReader.setAttr o n v) :=
  .object (setAttr_handler o n v) (Keeps.setAttr o n v)

/-- `o.pop()`. -/
theorem Runs.pop {P : Platform} {call : ICall} {room : Nat} (h : NoFunction n!"pop") (o : HVal) :
    Runs (fun _ _ => True) (invokeIo P call (room + 1) (.p (.h o)) n!"pop" ⟨[], []⟩) (HReader.pop o) := by
  intro w
  have h0 := (Runs.object (Keeps.pop o).2 (Keeps.pop o).1).bind (S := fun _ _ => True) (k := fun _ => IM.done (IVal.p (.h .none))) (h := fun u => pure u)
    (fun b a _ => .done trivial) w
  have hb : (HReader.pop o >>= fun u => pure u) w.heap (ByteHandler.new []) = HReader.pop o w.heap (ByteHandler.new []) := by
    rw [bind_run]
    cases HReader.pop o w.heap (ByteHandler.new []) <;> rfl
  unfold RunsAt at h0 ⊢
  rw [hb] at h0
  cases hc : W.cell w.heap o with
  | none =>
    have : invokeIo P call (room + 1) (.p (.h o)) n!"pop" ⟨[], []⟩ w = IM.andThen (Src.object (HReader.pop o)) (fun _ => IM.done (IVal.p (.h .none))) w := by
      show (match classOf w.heap o with
        | some c => _
        | none => _) = _
      unfold classOf
      rw [hc]
    rw [this]
    exact h0
  | some c =>
    cases c with
    | record c attrs =>
      have h1 : HReader.pop o w.heap (ByteHandler.new []) = .error .attributeError := by
        cases o with
        | ref x =>
          have hc : w.heap[x]? = some (.record c attrs) := hc
          unfold HReader.pop
          rw [bind_run, cell_run, hc]
          rfl
        | _ => cases hc
      rw [h1]
      refine .inr ⟨w.heap, ?_⟩
      show (match classOf w.heap o with
        | some c => _
        | none => _) = _
      unfold classOf
      rw [hc]
      dsimp only
      have hw : worksOnFiles (Name.ofStr c) n!"pop" = false := by
        unfold worksOnFiles
        cases Nat.beq (Name.ofStr c) n!"DatFile" <;> rfl
      rw [hw]
      dsimp only
      refine IM.andThen_raised (object_error ?_)
      unfold objMethod
      rw [hc]
      show run _ _ _ _ _ _ _ = _
      unfold run
      rw [h.method]
      rfl
    | _ =>
      have : invokeIo P call (room + 1) (.p (.h o)) n!"pop" ⟨[], []⟩ w = IM.andThen (Src.object (HReader.pop o)) (fun _ => IM.done (IVal.p (.h .none))) w := by
        show (match classOf w.heap o with
          | some c => _
          | none => _) = _
        unfold classOf
        rw [hc]
      rw [this]
      exact h0

/-! ## parse, edit, save -/

theorem parseObject_package {z : Zlib} {fs : FileSystem} {p : Path} {H H' : Heap} {o : HVal} (h : DatFile.parseObject z fs p H = .returned (o, H'))
    (hk : OfPackage H) : OfPackage H' := by
  unfold DatFile.parseObject at h
  cases hd : fs p with
  | none => rw [hd] at h; cases h
  | some b =>
    rw [hd] at h
    dsimp only at h
    cases hz : z.decompress b with
    | none => rw [hz] at h; cases h
    | some d =>
      rw [hz] at h
      dsimp only at h
      have h0 := DatFile_from_bytes.mono (Nat.le_refl _) 13 (by omega) H (ByteHandler.new d)
      unfold Agrees at h0
      cases hb : DatFile.build H (ByteHandler.new d) with
      | error e => rw [hb] at h; cases h
      | ok r =>
        obtain ⟨o', H1, s1⟩ := r
        rw [hb] at h h0
        cases h
        obtain ⟨t, h3, -⟩ := h0
        exact (Keeps.callN _ _ _ _ _ _ _ _ _ _ h3).package hk

theorem datFile_isA {H : Heap} {o : HVal} {d : DatFile} {old : Bool} {fp : List Nat} (r : Rep H o (d.object old) fp) : IsA H o n!"DatFile" := by
  unfold DatFile.object at r
  cases r with
  | obj hc rs => exact ⟨_, _, hc, by decide +kernel⟩

/-- `data = DatFile.parse(src)`, then `mid`, then `data.save(dst)`. -/
def programOf (src dst : String) (mid : St → St) : St :=
  .assign n!"data" (.call (.attr (.name n!"DatFile") n!"parse") (.arg (.str src) .argNil))
    (mid (.expr (.call (.attr (.name n!"data") n!"save") (.arg (.str dst) .argNil)) .done))

/-- The block goes on, and `data` is still that object. -/
def Has (o : HVal) (fl : IFlow) : Prop := ∃ ρ, fl = .next ρ ∧ find n!"data" ρ = some (.p (.h o))

/-- The statements after a block. -/
def goOn (k : IEnv → IM IFlow) : IFlow → IM IFlow
  | .next ρ => k ρ
  | .ret v => .done (.ret v)

theorem IM.assoc (f : IM α) (g : α → IM β) (h : β → IM γ) : IM.andThen (IM.andThen f g) h = IM.andThen f fun a => IM.andThen (g a) h := by
  funext w
  unfold IM.andThen
  cases f w with
  | mk w' out => cases out <;> rfl

theorem program_source (P : Platform) (m : Module) (hm : nameIo m [] n!"DatFile" = some (.p (.cls n!"DatFile"))) (src dst : String) (mid : St → St)
    (program : HVal → HReader PUnit) (edit : DatFile → Py DatFile) (room : Nat) (hr : 23 ≤ room)
    (hmid : ∀ o rest, ∃ f : IM IFlow,
      execIo P m [] (callIo P room) room (mid rest) [(n!"data", .p (.h o))] = IM.andThen f (goOn fun ρ => execIo P m [] (callIo P room) room rest ρ) ∧
      Runs (fun _ fl => Has o fl) f (program o))
    (he : ∀ H o d old fp, Rep H o (DatFile.object old d) fp → fp.Nodup → d.Sized → ∀ s,
      match edit d with
      | .ok d' => ∃ H' fp', program o H s = .ok ((), H', s) ∧ Rep H' o (d'.object old) fp' ∧ d'.Sized
      | .error e => program o H s = .error e ∧ e ≠ .typeError)
    (w : World) (hk : OfPackage w.heap) :
    ∃ H, runProgram P room m (programOf src dst mid) w =
      ({ w with disk := (editFile edit P.zlib P.env w.disk src dst).1, heap := H }, (editFile edit P.zlib P.env w.disk src dst).2) := by
  obtain ⟨n, rfl⟩ : ∃ n, room = n + 1 := ⟨room - 1, by omega⟩
  have hp := parse_source P n (by omega) w (.p (.text src)) src rfl
  have e1 : evalIo P m [] (callIo P (n + 1)) (n + 1) (.call (.attr (.name n!"DatFile") n!"parse") (.arg (.str src) .argNil)) [] w = parsed P src w := by
    refine (IM.andThen_ok (a := .p (.cls n!"DatFile")) (w' := w) ?_).trans ((IM.andThen_ok (a := ⟨[.p (.text src)], []⟩) (w' := w) rfl).trans ?_)
    case refine_2 => exact hp
    show lookIo _ _ _ _ _ = _
    unfold lookIo
    rw [hm]
    rfl
  have h5 := C47_parse P.zlib w.disk src w.heap
  unfold parsed at e1
  unfold editFile
  cases hq : DatFile.parse P.zlib w.disk src with
  | raised e =>
    rw [hq] at h5
    dsimp only at h5
    rw [h5] at e1
    exact ⟨w.heap, IM.andThen_raised (assign_raised e1)⟩
  | crashed => rw [hq] at h5; exact h5.elim
  | returned d =>
    rw [hq] at h5
    obtain ⟨o, N, fp, h6, r, nd, -, hwf⟩ := h5
    have hk1 := parseObject_package h6 hk
    rw [h6] at e1
    dsimp only at e1 ⊢
    obtain ⟨v, hwf⟩ := hwf
    have h7 := he _ o d _ fp r nd hwf.sized (ByteHandler.new [])
    obtain ⟨f, h8, h9⟩ := hmid o (.expr (.call (.attr (.name n!"data") n!"save") (.arg (.str dst) .argNil)) .done)
    have h10 := h9 { w with heap := w.heap ++ N }
    unfold RunsAt at h10
    dsimp only at h10
    cases e2 : edit d with
    | error e =>
      rw [e2] at h7
      obtain ⟨h7, hne⟩ := h7
      rw [h7] at h10
      obtain ⟨H', h11⟩ := h10.resolve_left hne
      exact ⟨H', IM.andThen_raised ((assign_ok e1).trans ((congrFun h8 _).trans (IM.andThen_raised h11)))⟩
    | ok d' =>
      rw [e2] at h7
      obtain ⟨H', fp', h7, r', hs'⟩ := h7
      rw [h7] at h10
      obtain ⟨-, ⟨_, ⟨ρ, rfl, hρ⟩, h11⟩, hk2⟩ := h10
      have hk3 := hk2 hk1
      have hc := (DatFile.converts d.old d').carries
      have hne : W.toBytes H' 5 o .UNDEFINED ≠ .error .recursionError := by
        rw [C47_save H' o _ fp' r' d' hc hs' 5 (Nat.le_refl _) .UNDEFINED, ← C47_save H' o _ fp' r' d' hc hs' (5 + (d'.object d.old).height) (by omega) .UNDEFINED]
        exact C47_any_room H' o _ fp' r' _ (by omega) .UNDEFINED
      have h12 := save_source P n 5 (by omega) { w with heap := H' } hk3 o (datFile_isA r') hne (.p (.text dst)) dst rfl
      have h13 : evalIo P m [] (callIo P (n + 1)) (n + 1) (.call (.attr (.name n!"data") n!"save") (.arg (.str dst) .argNil)) ρ { w with heap := H' } =
          saved P 5 o dst { w with heap := H' } := by
        refine (IM.andThen_ok (a := .p (.h o)) (w' := { w with heap := H' }) ?_).trans ((IM.andThen_ok (a := ⟨[.p (.text dst)], []⟩) (w' := { w with heap := H' }) rfl).trans ?_)
        · show lookIo _ _ _ _ _ = _
          unfold lookIo
          rw [hρ]
          rfl
        · refine Eq.trans ?_ h12
          show (match classOf H' o with
            | some c => _
            | none => _) = _
          have hcl : classOf H' o = some n!"DatFile" := by
            obtain ⟨name, attrs, hc, hn⟩ := datFile_isA r'
            unfold classOf
            rw [hc]
            dsimp only
            rw [hn]
          rw [hcl]
          rfl
      have h14 := C47_save_file P.zlib P.env w.disk H' o _ fp' r' d' hc hs' 5 (Nat.le_refl _) dst
      have h15 : runProgram P (n + 1) m (programOf src dst mid) w =
          IM.andThen (fun w => execIo P m [] (callIo P (n + 1)) (n + 1) (.expr (.call (.attr (.name n!"data") n!"save") (.arg (.str dst) .argNil)) .done) ρ w)
            (fun _ => IM.done ()) { w with heap := H' } := by
        unfold runProgram IM.andThen programOf
        rw [((assign_ok e1).trans ((congrFun h8 _).trans (IM.andThen_ok h11)) : execIo P m [] (callIo P (n + 1)) (n + 1) _ [] w = _)]
        rfl
      refine ⟨H', h15.trans ?_⟩
      unfold saved at h13
      dsimp only at h13 ⊢
      rw [h14] at h13
      cases hsv : DatFile.save P.zlib P.env w.disk d' dst with
      | mk fs out =>
        rw [hsv] at h13
        cases out with
        | returned u => exact IM.andThen_ok (expr_ok h13)
        | raised e => exact IM.andThen_raised (expr_raised h13)
        | crashed => exact IM.andThen_crashed (expr_crashed h13)

/-! ## the two programs -/

theorem Runs.congr {R : β → α → Prop} {f : IM α} {g h : HReader β} (hf : Runs R f g) (e : g = h) : Runs R f h := e ▸ hf

theorem HReader.bind_assoc (f : HReader α) (g : α → HReader β) (h : β → HReader γ) : (f >>= g) >>= h = f >>= fun a => g a >>= h := by
  funext H s
  rw [bind_run, bind_run, bind_run]
  cases f H s <;> rfl

theorem HReader.bind_pure' (g : HReader PUnit) : (g >>= fun u => pure u) = g := by
  funext H s
  rw [bind_run]
  cases g H s <;> rfl

theorem no_techs : NoFunction n!"techs" := by unfold NoFunction; decide +kernel
theorem no_resource_costs : NoFunction n!"resource_costs" := by unfold NoFunction; decide +kernel
theorem no_civs : NoFunction n!"civs" := by unfold NoFunction; decide +kernel
theorem no_units : NoFunction n!"units" := by unfold NoFunction; decide +kernel
theorem no_bird : NoFunction n!"bird" := by unfold NoFunction; decide +kernel
theorem no_tasks : NoFunction n!"tasks" := by unfold NoFunction; decide +kernel
theorem no_pop : NoFunction n!"pop" := by unfold NoFunction; decide +kernel

section
variable {P : Platform} {m : Module} {fs : List Fun} {call : ICall} {room : Nat} {ρ : IEnv}

theorem Runs.local {x : Name} {o : HVal} (h : find x ρ = some (.p (.h o))) : Runs IsObj (evalIo P m fs call room (.name x) ρ) (pure o) := by
  have e : evalIo P m fs call room (.name x) ρ = IM.done (.p (.h o)) := by
    show lookIo _ _ _ _ = _
    unfold lookIo
    rw [h]
  rw [e]
  exact .done rfl

theorem Runs.evalAttr {e : Ex} {g : HReader HVal} (h : Runs IsObj (evalIo P m fs call room e ρ) g) (a : Name) (name : PyStr) (ha : NoFunction a)
    (hn : Name.str a = name) : Runs IsObj (evalIo P m fs call room (.attr e a) ρ) (g >>= fun o => HReader.getAttr o name) :=
  h.bind (k := fun v => attrIo room v a) fun b a hb => by rw [hb]; exact .attr b _ name ha hn

theorem Runs.evalIndex {e : Ex} {g : HReader HVal} (h : Runs IsObj (evalIo P m fs call room e ρ) g) (i : Nat) :
    Runs IsObj (evalIo P m fs call room (.index e (.int i)) ρ) (g >>= fun o => HReader.getItem o i) := by
  refine h.bind (k := fun v => IM.andThen (evalIo P m fs call room (.int i) ρ) fun i => match v, i with
    | IVal.p v, IVal.p i => IM.andThen (Src.object (indexM v i)) fun r => IM.done (IVal.p r)
    | _, _ => IM.fail .typeError) fun b a hb => ?_
  rw [hb]
  exact .after (a := IVal.p (PVal.h (.int i))) (fun _ => rfl) (.index b i)

end

theorem find_set (x : Name) (v : IVal) : ∀ ρ : IEnv, find x (setIo x v ρ) = some v
  | [] => by unfold setIo find; rw [Nat.beq_refl]
  | (y, w) :: ρ => by
    unfold setIo
    cases h : Nat.beq x y with
    | true => dsimp only; unfold find; rw [h]
    | false => dsimp only; unfold find; rw [h]; exact find_set x v ρ

theorem find_set_ne {x y : Name} (v : IVal) (hne : Nat.beq y x = false) : ∀ ρ : IEnv, find y (setIo x v ρ) = find y ρ
  | [] => by unfold setIo find; rw [hne]; rfl
  | (z, w) :: ρ => by
    unfold setIo
    cases h : Nat.beq x z with
    | true =>
      have := Nat.eq_of_beq_eq_true h
      subst this
      dsimp only
      unfold find
      rw [hne]
    | false =>
      dsimp only
      unfold find
      rw [find_set_ne v hne ρ]

theorem changeKings_error {d : DatFile} {e : PyErr} (h : changeKings d = .error e) : e ≠ .typeError := by
  have one : ∀ c e, popKingTask c = .error e → e ≠ .typeError := by
    intro c e h
    unfold popKingTask getItem notNone popped at h
    cases h1 : c.units[434]? with
    | none => simp only [bind, Except.bind, h1] at h; cases h; exact nofun
    | some u =>
      cases u with
      | none => simp only [bind, Except.bind, h1] at h; cases h; exact nofun
      | some u =>
        cases h2 : u.bird with
        | none => simp only [bind, Except.bind, h1, h2] at h; cases h; exact nofun
        | some b =>
          cases h3 : b.tasks with
          | nil => simp only [bind, Except.bind, h1, h2, h3] at h; cases h; exact nofun
          | cons t ts => simp only [bind, Except.bind, h1, h2, h3] at h; cases h
  have all : ∀ (cs : List Civ) e, cs.mapM popKingTask = .error e → e ≠ .typeError := by
    intro cs
    induction cs with
    | nil => intro e h; cases h
    | cons c cs ih =>
      intro e h
      rw [List.mapM_cons] at h
      cases h1 : popKingTask c with
      | error x => rw [h1] at h; cases h; exact one c _ h1
      | ok c' =>
        rw [h1] at h
        cases h2 : cs.mapM popKingTask with
        | error x => simp only [bind, Except.bind, h2] at h; cases h; exact ih _ h2
        | ok cs' => simp only [bind, Except.bind, h2] at h; cases h
  unfold changeKings at h
  cases h1 : d.civs.mapM popKingTask with
  | error x => rw [h1] at h; cases h; exact all _ _ h1
  | ok cs => rw [h1] at h; cases h

theorem loom_source (P : Platform) (room : Nat) (hr : 23 ≤ room) (w : World) (hk : OfPackage w.heap) :
    ∃ H, runProgram P room module_loom program_loom w =
      ({ w with disk := (editFile changeLoom P.zlib P.env w.disk "path/to/empires2_x2_p1.dat" "path/to/modded/empires2_x2_p1.dat").1, heap := H },
        (editFile changeLoom P.zlib P.env w.disk "path/to/empires2_x2_p1.dat" "path/to/modded/empires2_x2_p1.dat").2) := by
  refine program_source P module_loom rfl _ _ (fun rest => .setAttr (.index (.attr (.index (.attr (.name n!"data") n!"techs") (.int 22)) n!"resource_costs") (.int 0))
    n!"amount" (.int 69) rest) HReader.changeLoom changeLoom room hr (fun o rest => ?_) (fun H o d old fp r nd hs s => ?_) w hk
  · refine ⟨IM.andThen (evalIo P module_loom [] (callIo P room) room (.index (.attr (.index (.attr (.name n!"data") n!"techs") (.int 22)) n!"resource_costs") (.int 0))
        [(n!"data", .p (.h o))]) fun u => match u with
        | .p u => IM.andThen (object (setAttrM u n!"amount" (.h (.int 69)))) fun _ => IM.done (.next [(n!"data", IVal.p (PVal.h o))])
        | _ => .fail .typeError, ?_, ?_⟩
    · rw [IM.assoc]
      refine Eq.trans (b := IM.andThen (evalIo P module_loom [] (callIo P room) room _ _) _) (rfl : IM.andThen (IM.done (IVal.p (PVal.h (.int 69)))) _ = _) ?_
      refine congrArg (IM.andThen _) (funext fun u => ?_)
      cases u with
      | p u =>
        dsimp only
        rw [IM.assoc]
        rfl
      | _ => rfl
    · have h1 := ((((Runs.local (P := P) (m := module_loom) (fs := []) (call := callIo P room) (room := room) (ρ := [(n!"data", .p (.h o))]) (x := n!"data") (o := o) rfl).evalAttr
        n!"techs" (lit "techs") no_techs (by decide +kernel)).evalIndex 22).evalAttr n!"resource_costs" (lit "resource_costs") no_resource_costs (by decide +kernel)).evalIndex 0
      have h2 := h1.bind (S := fun (_ : PUnit) fl => Has o fl) (k := fun u => match u with
        | IVal.p u => IM.andThen (object (setAttrM u n!"amount" (.h (.int 69)))) fun _ => IM.done (.next [(n!"data", IVal.p (PVal.h o))])
        | _ => IM.fail .typeError) (h := fun c => HReader.setAttr c (lit "amount") (.int 69) >>= fun u => pure u) fun b a hb => by
          rw [hb]
          have hn : Name.str n!"amount" = lit "amount" := by decide +kernel
          refine Runs.bind (R := Eq) ?_ fun _ _ _ => .done ⟨_, rfl, rfl⟩
          show Runs Eq (object (HReader.setAttr b (Name.str n!"amount") (.int 69))) _
          rw [hn]
          exact .setAttr b _ _
      refine h2.congr ?_
      simp only [HReader.bind_assoc, HReader.bind_pure']
      rfl
  · have main := changeLoom_run r nd s
    cases e : changeLoom d with
    | error x =>
      rw [e] at main
      refine ⟨main, ?_⟩
      unfold changeLoom getItem at e
      cases h1 : d.techs[22]? with
      | none => rw [h1] at e; cases e; exact nofun
      | some t =>
        rw [h1] at e
        cases h2 : t.resource_costs[0]? with
        | none => simp only [bind, Except.bind, h2] at e; cases e; exact nofun
        | some c => simp only [bind, Except.bind, h2] at e; cases e
    | ok d' =>
      rw [e] at main
      obtain ⟨H'', h1, ed⟩ := main
      obtain ⟨fp', r', _, _⟩ := ed.rep
      exact ⟨H'', fp', h1, r', changeLoom_sized e hs⟩

/-- One iteration of the loop over the civs. -/
theorem king_runs (P : Platform) (room : Nat) (o civ : HVal) (ρ : IEnv) (h1 : find n!"civ" ρ = some (.p (.h civ))) (h2 : find n!"data" ρ = some (.p (.h o))) :
    Runs (fun _ fl => Has o fl) (execIo P module_kings [] (callIo P (room + 1)) (room + 1)
      (.expr (.call (.attr (.attr (.attr (.index (.attr (.name n!"civ") n!"units") (.int 434)) n!"bird") n!"tasks") n!"pop") .argNil) .done) ρ)
      (HReader.popKingTask civ) := by
  have e1 := ((((Runs.local (P := P) (m := module_kings) (fs := []) (call := callIo P (room + 1)) (room := room + 1) (ρ := ρ) h1).evalAttr
    n!"units" (lit "units") no_units (by decide +kernel)).evalIndex 434).evalAttr n!"bird" (lit "bird") no_bird (by decide +kernel)).evalAttr
    n!"tasks" (lit "tasks") no_tasks (by decide +kernel)
  have e2 := e1.bind (S := fun (_ : PUnit) fl => Has o fl) (k := fun v => IM.andThen (invokeIo P (callIo P (room + 1)) (room + 1) v n!"pop" ⟨[], []⟩)
    fun _ => IM.done (.next ρ)) (h := fun t => HReader.pop t >>= fun u => pure u) fun b a hb => by
      rw [hb]
      exact (Runs.pop no_pop b).bind fun _ _ _ => .done ⟨ρ, rfl, h2⟩
  have e3 : execIo P module_kings [] (callIo P (room + 1)) (room + 1)
      (.expr (.call (.attr (.attr (.attr (.index (.attr (.name n!"civ") n!"units") (.int 434)) n!"bird") n!"tasks") n!"pop") .argNil) .done) ρ =
      IM.andThen (evalIo P module_kings [] (callIo P (room + 1)) (room + 1) (.attr (.attr (.index (.attr (.name n!"civ") n!"units") (.int 434)) n!"bird") n!"tasks") ρ)
        fun v => IM.andThen (invokeIo P (callIo P (room + 1)) (room + 1) v n!"pop" ⟨[], []⟩) fun _ => IM.done (.next ρ) := IM.assoc _ _ _
  rw [e3]
  refine e2.congr ?_
  simp only [HReader.bind_assoc, HReader.bind_pure']
  rfl

/-- The loop over the civs. -/
theorem kings_loop (P : Platform) (room : Nat) (o civs : HVal) : ∀ (n i : Nat) (ρ : IEnv), find n!"data" ρ = some (.p (.h o)) →
    Runs (fun _ fl => Has o fl) (forIo (fun ρ => execIo P module_kings [] (callIo P (room + 1)) (room + 1)
      (.expr (.call (.attr (.attr (.attr (.index (.attr (.name n!"civ") n!"units") (.int 434)) n!"bird") n!"tasks") n!"pop") .argNil) .done) ρ) n!"civ" civs i n ρ)
      (HReader.popKingTasks civs i n)
  | 0, _, ρ, h => .done ⟨ρ, rfl, h⟩
  | n + 1, i, ρ, h => by
    refine (Runs.getItem civs i).bind fun b a hb => ?_
    subst hb
    refine (king_runs P room o b _ (find_set _ _ _) ((find_set_ne _ (by decide) _).trans h)).bind fun _ fl hfl => ?_
    obtain ⟨ρ', rfl, h'⟩ := hfl
    exact kings_loop P room o civs n (i + 1) ρ' h'

theorem kings_source (P : Platform) (room : Nat) (hr : 23 ≤ room) (w : World) (hk : OfPackage w.heap) :
    ∃ H, runProgram P room module_kings program_kings w =
      ({ w with disk := (editFile changeKings P.zlib P.env w.disk "path/to/empires2_x2_p1.dat" "path/to/modded/empires2_x2_p1.dat").1, heap := H },
        (editFile changeKings P.zlib P.env w.disk "path/to/empires2_x2_p1.dat" "path/to/modded/empires2_x2_p1.dat").2) := by
  obtain ⟨room, rfl⟩ : ∃ n, room = n + 1 := ⟨room - 1, by omega⟩
  refine program_source P module_kings rfl _ _ (fun rest => .forIn n!"civ" (.attr (.name n!"data") n!"civs")
      (.expr (.call (.attr (.attr (.attr (.index (.attr (.name n!"civ") n!"units") (.int 434)) n!"bird") n!"tasks") n!"pop") .argNil) .done) rest)
    HReader.changeKings changeKings (room + 1) hr (fun o rest => ?_) (fun H o d old fp r nd hs s => ?_) w hk
  · refine ⟨IM.andThen (evalIo P module_kings [] (callIo P (room + 1)) (room + 1) (.attr (.name n!"data") n!"civs") [(n!"data", .p (.h o))]) fun v => match v with
        | .p (.h c) => IM.andThen (object (HReader.len c)) fun n => forIo (fun ρ => execIo P module_kings [] (callIo P (room + 1)) (room + 1)
          (.expr (.call (.attr (.attr (.attr (.index (.attr (.name n!"civ") n!"units") (.int 434)) n!"bird") n!"tasks") n!"pop") .argNil) .done) ρ)
            n!"civ" c 0 n [(n!"data", .p (.h o))]
        | _ => .fail .typeError, ?_, ?_⟩
    · rw [IM.assoc]
      refine congrArg (IM.andThen _) (funext fun u => ?_)
      cases u with
      | p u =>
        cases u with
        | h u =>
          refine Eq.trans ?_ (IM.assoc _ _ _).symm
          refine congrArg (IM.andThen _) (funext fun n => ?_)
          refine congrArg (IM.andThen _) (funext fun fl => ?_)
          cases fl <;> rfl
        | _ => rfl
      | _ => rfl
    · have h1 := (Runs.local (P := P) (m := module_kings) (fs := []) (call := callIo P (room + 1)) (room := room + 1) (ρ := [(n!"data", .p (.h o))]) (x := n!"data") (o := o) rfl).evalAttr
        n!"civs" (lit "civs") no_civs (by decide +kernel)
      refine (h1.bind (S := fun (_ : PUnit) fl => Has o fl) (h := fun civs => HReader.len civs >>= fun n => HReader.popKingTasks civs 0 n) fun b a hb => ?_).congr ?_
      · rw [hb]
        refine (Runs.len b).bind fun n _ hn => ?_
        subst hn
        exact kings_loop P room o b n 0 _ rfl
      · simp only [HReader.bind_assoc]
        rfl
  · have main := changeKings_run r nd s
    cases e : changeKings d with
    | error x =>
      rw [e] at main
      exact ⟨main, changeKings_error e⟩
    | ok d' =>
      rw [e] at main
      obtain ⟨H'', h1, ed⟩ := main
      obtain ⟨fp', r', _, _⟩ := ed.rep
      exact ⟨H'', fp', h1, r', changeKings_sized e hs⟩

end Genie.Src
