import Verif.Proof.Source.Asserts
import Verif.Py.InterpIo
/-!
# Programs with more room

A program that does not run out of room does the same with more room.
-/

namespace Genie

theorem W.asdictItems_room {f g : HVal → Py PyTree} (h : ∀ v, f v = g v ∨ f v = .error .recursionError) :
    ∀ vs, W.asdictItems f vs = W.asdictItems g vs ∨ W.asdictItems f vs = .error .recursionError
  | [] => .inl rfl
  | v :: vs => by
    unfold W.asdictItems
    rcases h v with h1 | h1
    · rw [h1]
      cases g v with
      | error e => exact .inl rfl
      | ok a =>
        rcases W.asdictItems_room h vs with h2 | h2
        · rw [h2]; exact .inl rfl
        · rw [h2]; exact .inr rfl
    · rw [h1]; exact .inr rfl

theorem W.asdictFields_room {f g : HVal → Py PyTree} (h : ∀ v, f v = g v ∨ f v = .error .recursionError) (attrs : List (PyStr × HVal)) :
    ∀ ns, W.asdictFields f attrs ns = W.asdictFields g attrs ns ∨ W.asdictFields f attrs ns = .error .recursionError
  | [] => .inl rfl
  | n :: ns => by
    unfold W.asdictFields
    cases HReader.lookup n attrs with
    | none => exact .inl rfl
    | some v =>
      dsimp only
      rcases h v with h1 | h1
      · rw [h1]
        cases g v with
        | error e => exact .inl rfl
        | ok a =>
          rcases W.asdictFields_room h attrs ns with h2 | h2
          · rw [h2]; exact .inl rfl
          · rw [h2]; exact .inr rfl
      · rw [h1]; exact .inr rfl

theorem W.asdictInner_room (H : Heap) (k : Nat) : ∀ n v, W.asdictInner H n v = W.asdictInner H (n + k) v ∨ W.asdictInner H n v = .error .recursionError
  | 0, _ => .inr rfl
  | n + 1, .none => .inl (by rw [Nat.add_right_comm]; rfl)
  | n + 1, .int i => .inl (by rw [Nat.add_right_comm]; rfl)
  | n + 1, .float x => .inl (by rw [Nat.add_right_comm]; rfl)
  | n + 1, .str s => .inl (by rw [Nat.add_right_comm]; rfl)
  | n + 1, .ref a => by
    rw [Nat.add_right_comm]
    unfold W.asdictInner
    cases H[a]? with
    | none => exact .inl rfl
    | some c =>
      cases c with
      | list vs =>
        dsimp only
        rcases W.asdictItems_room (W.asdictInner_room H k n) vs with h | h
        · rw [h]; exact .inl rfl
        · rw [h]; exact .inr rfl
      | tuple vs =>
        dsimp only
        rcases W.asdictItems_room (W.asdictInner_room H k n) vs with h | h
        · rw [h]; exact .inl rfl
        · rw [h]; exact .inr rfl
      | record cls attrs =>
        dsimp only
        cases fieldNames cls with
        | none => exact .inl rfl
        | some ns =>
          dsimp only
          rcases W.asdictFields_room (W.asdictInner_room H k n) attrs ns with h | h
          · rw [h]; exact .inl rfl
          · rw [h]; exact .inr rfl

theorem W.asdict_room (H : Heap) (n k : Nat) (v : HVal) : W.asdict H n v = W.asdict H (n + k) v ∨ W.asdict H n v = .error .recursionError := by
  unfold W.asdict
  cases W.cell H v with
  | none => exact .inl rfl
  | some c =>
    cases c with
    | record cls attrs => exact W.asdictInner_room H k n v
    | _ => exact .inl rfl

namespace Src

/-- `f` does what `g` does, unless it raises `RecursionError`. -/
def RoomIo (f g : IM α) : Prop := ∀ w, f w = g w ∨ ∃ w', f w = (w', .raised .recursionError)

theorem RoomIo.same (f : IM α) : RoomIo f f := fun _ => .inl rfl

theorem RoomIo.andThen {f g : IM α} {k l : α → IM β} (hf : RoomIo f g) (hk : ∀ a, RoomIo (k a) (l a)) : RoomIo (IM.andThen f k) (IM.andThen g l) := by
  intro w
  unfold IM.andThen
  rcases hf w with h | ⟨w', h⟩
  · rw [h]
    generalize g w = r
    obtain ⟨w', o⟩ := r
    cases o with
    | returned a => exact hk a w'
    | raised e => exact .inl rfl
    | crashed => exact .inl rfl
  · rw [h]; exact .inr ⟨w', rfl⟩

theorem RoomIo.inner {f g : M α} (h : Upto (· = .recursionError) f g) (s : ByteHandler) : RoomIo (Src.inner s f) (Src.inner s g) := by
  intro w
  unfold Src.inner
  rcases h w.heap s with ⟨h, -⟩ | ⟨e, rfl, h⟩
  · rw [h]; exact .inl rfl
  · rw [h]; exact .inr ⟨w, rfl⟩

theorem RoomIo.object {f g : M α} (h : Upto (· = .recursionError) f g) : RoomIo (Src.object f) (Src.object g) := .andThen (.inner h _) fun _ => .same _

section
variable (P : Platform) (m : Module) (fs : List Fun) {call call' : ICall} (hc : ∀ c f as, RoomIo (call c f as) (call' c f as)) (n k : Nat)

theorem RoomIo.libIo (lib f : Name) (as : IArgs) : RoomIo (Src.libIo P n lib f as) (Src.libIo P (n + k) lib f as) := by
  unfold Src.libIo
  split
  · exact .same _
  · split
    · intro w
      dsimp only
      rename_i v _ _ _
      rcases W.asdict_room w.heap n k v with h | h
      · rw [h]; exact .inl rfl
      · rw [h]; exact .inr ⟨_, rfl⟩
    · exact .same _
  · exact .same _
  · exact .same _
  · exact .same _

include hc

theorem RoomIo.invokeIo (v : IVal) (f : Name) (as : IArgs) : RoomIo (Src.invokeIo P call n v f as) (Src.invokeIo P call' (n + k) v f as) := by
  unfold Src.invokeIo
  split
  · exact RoomIo.libIo P n k _ _ _
  · exact .same _
  · exact .same _
  · split
    · split
      · exact hc _ _ _
      · exact .same _
    · split
      · exact .andThen (.inner (callN_upto n k _ _ _ _) _) fun _ => .same _
      · exact .same _
  · intro w
    dsimp only
    split
    · split
      · split
        · exact hc _ _ _ w
        · exact .inl rfl
      · split
        · exact RoomIo.andThen (.object (UptoQ.objMethod (callN_upto n k) _ _ _)) (fun _ => .same _) w
        · exact .inl rfl
    · exact .inl rfl
  · exact .same _

theorem RoomIo.applyIo (v : IVal) (as : IArgs) : RoomIo (Src.applyIo call n v as) (Src.applyIo call' (n + k) v as) := by
  unfold Src.applyIo
  split
  · exact .same _
  · split
    · exact .andThen (.inner (callN_upto n k _ _ _ _) _) fun _ => .same _
    · exact .same _
  · exact hc _ _ _
  · exact .same _

omit hc in
theorem RoomIo.attrIo (v : IVal) (a : Name) : RoomIo (Src.attrIo n v a) (Src.attrIo (n + k) v a) := by
  unfold Src.attrIo
  split
  · exact .andThen (.object (UptoQ.attrM (callN_upto n k) _ _)) fun _ => .same _
  · exact .same _
  · exact .same _

omit hc in
/-- What is shown about an expression, by induction. -/
structure RoomEx (P : Platform) (m : Module) (fs : List Fun) (call call' : ICall) (n k : Nat) (e : Ex) : Prop where
  ev : ∀ ρ, RoomIo (evalIo P m fs call n e ρ) (evalIo P m fs call' (n + k) e ρ)
  args : ∀ ρ, RoomIo (evalArgsIo P m fs call n e ρ) (evalArgsIo P m fs call' (n + k) e ρ)
  recv : ∀ e' f, e = .attr e' f → ∀ ρ, RoomIo (evalIo P m fs call n e' ρ) (evalIo P m fs call' (n + k) e' ρ)

theorem RoomEx.all (e : Ex) : RoomEx P m fs call call' n k e := by
  induction e with
  | neg e ih => exact ⟨fun ρ => .andThen (ih.ev ρ) fun _ => .same _, fun _ => .same _, nofun⟩
  | attr e a ih =>
    exact ⟨fun ρ => .andThen (ih.ev ρ) fun v => RoomIo.attrIo n k v a, fun _ => .same _, fun e' f h => by cases h; exact ih.ev⟩
  | index e i ihe ihi => exact ⟨fun ρ => .andThen (ihe.ev ρ) fun v => .andThen (ihi.ev ρ) fun _ => .same _, fun _ => .same _, nofun⟩
  | call f as ihf iha =>
    refine ⟨fun ρ => ?_, fun _ => .same _, nofun⟩
    cases f with
    | attr e' f' => exact .andThen (ihf.recv _ _ rfl ρ) fun v => .andThen (iha.args ρ) fun as => RoomIo.invokeIo P hc n k v f' as
    | _ => exact .andThen (ihf.ev ρ) fun v => .andThen (iha.args ρ) fun as => RoomIo.applyIo hc n k v as
  | arg e r ihe ihr => exact ⟨fun _ => .same _, fun ρ => .andThen (ihe.ev ρ) fun v => .andThen (ihr.args ρ) fun _ => .same _, nofun⟩
  | kw x e r ihe ihr => exact ⟨fun _ => .same _, fun ρ => .andThen (ihe.ev ρ) fun v => .andThen (ihr.args ρ) fun _ => .same _, nofun⟩
  | _ => exact ⟨fun _ => .same _, fun _ => .same _, nofun⟩

omit hc in
theorem RoomIo.forIo {body body' : IEnv → IM IFlow} (hb : ∀ ρ, RoomIo (body ρ) (body' ρ)) (x : Name) (o : HVal) :
    ∀ i n ρ, RoomIo (Src.forIo body x o i n ρ) (Src.forIo body' x o i n ρ)
  | _, 0, _ => .same _
  | i, n + 1, ρ => .andThen (.same _) fun v => .andThen (hb _) fun fl => by
    cases fl with
    | next ρ' => exact RoomIo.forIo hb x o (i + 1) n ρ'
    | ret v => exact .same _

theorem RoomIo.execIo : ∀ (st : St) (ρ : IEnv), RoomIo (Src.execIo P m fs call n st ρ) (Src.execIo P m fs call' (n + k) st ρ)
  | .done, _ => .same _
  | .assign x e rest, ρ => .andThen ((RoomEx.all P m fs hc n k e).ev ρ) fun v => RoomIo.execIo rest _
  | .expr e rest, ρ => .andThen ((RoomEx.all P m fs hc n k e).ev ρ) fun v => RoomIo.execIo rest _
  | .setAttr o a e rest, ρ => .andThen ((RoomEx.all P m fs hc n k e).ev ρ) fun v => .andThen ((RoomEx.all P m fs hc n k o).ev ρ) fun u => by
    have := RoomIo.execIo rest ρ
    cases u <;> cases v <;> first | exact .andThen (.same _) fun _ => this | exact .same _
  | .forIn x it body rest, ρ => .andThen ((RoomEx.all P m fs hc n k it).ev ρ) fun v => by
    have hr := fun ρ => RoomIo.execIo rest ρ
    have hb := fun ρ => RoomIo.execIo body ρ
    cases v with
    | p v =>
      cases v with
      | h o =>
        exact .andThen (.same _) fun l => .andThen (RoomIo.forIo hb x o 0 l ρ) fun fl => by
          cases fl with
          | next ρ' => exact hr ρ'
          | ret v => exact .same _
      | _ => exact .same _
    | _ => exact .same _
  | .ret e, ρ => .andThen ((RoomEx.all P m fs hc n k e).ev ρ) fun v => .same _
  | .aug .., _ => .same _
  | .unpack .., _ => .same _
  | .assert .., _ => .same _
  | .ite .., _ => .same _
  | .raise .., _ => .same _

end

theorem callIo_room (P : Platform) (k : Nat) : ∀ n c f as, RoomIo (callIo P n c f as) (callIo P (n + k) c f as)
  | 0, _, _, _ => fun w => .inr ⟨w, rfl⟩
  | n + 1, c, f, as => by
    rw [Nat.add_right_comm]
    unfold callIo
    cases functionIo c f with
    | none => exact .same _
    | some g =>
      obtain ⟨m, fs, g⟩ := g
      dsimp only
      cases bindIo g.params as with
      | none => exact .same _
      | some ρ => exact .andThen (RoomIo.execIo P m fs (callIo_room P k n) n k g.body ρ) fun _ => .same _

theorem runProgram_room (P : Platform) (n k : Nat) (m : Module) (body : St) : RoomIo (runProgram P n m body) (runProgram P (n + k) m body) :=
  .andThen (RoomIo.execIo P m [] (callIo_room P k n) n k body []) fun _ => .same _

end Src
end Genie
