import Verif.Proof.Heap.StoreTrees
import Verif.Proof.Heap.ScriptSim
import Verif.Props.C48_TypedPrograms
import Verif.Props.C08_C10_Readers
import Verif.Props.C36_C37_Errors
/-!
# Typed scripts
-/

namespace Genie
open HReader ObjTree

variable {D : PyStr → List (PyStr × Ann) → Prop}

theorem mem_take_drop {P : HVal → Prop} {vs : List HVal} (h : ∀ v ∈ vs, P v) {i j : Nat} {w : List HVal} (hw : ∀ v ∈ w, P v) :
    ∀ v ∈ vs.take i ++ (w ++ vs.drop j), P v := by
  intro v hv
  rcases List.mem_append.1 hv with hv | hv
  · exact h v (List.mem_of_mem_take hv)
  · rcases List.mem_append.1 hv with hv | hv
    · exact hw v hv
    · exact h v (List.mem_of_mem_drop hv)

theorem HVal.SuitsAll.take {f : Nat → Option Ann} : ∀ {as : List Ann} {vs : List HVal}, HVal.SuitsAll f as vs → ∀ n : Nat, HVal.SuitsAll f (as.take n) (vs.take n)
  | _, _, h, 0 => by rw [List.take_zero, List.take_zero]; exact .nil
  | _, _, .nil, n + 1 => .nil
  | _, _, .cons h t, n + 1 => .cons h (t.take n)

theorem HVal.SuitsAll.drop {f : Nat → Option Ann} : ∀ {as : List Ann} {vs : List HVal}, HVal.SuitsAll f as vs → ∀ n : Nat, HVal.SuitsAll f (as.drop n) (vs.drop n)
  | _, _, h, 0 => h
  | _, _, .nil, n + 1 => .nil
  | _, _, .cons h t, n + 1 => t.drop n

theorem HVal.SuitsAll.mem {f : Nat → Option Ann} : ∀ {as : List Ann} {vs : List HVal}, HVal.SuitsAll f as vs → ∀ {v : HVal}, v ∈ vs → ∃ a ∈ as, HVal.Suits f a v
  | _, _, .nil, _, m => nomatch m
  | _, _, .cons h t, v, m => by
    rcases List.mem_cons.1 m with rfl | m
    · exact ⟨_, List.mem_cons_self, h⟩
    · obtain ⟨a, ha, hs⟩ := t.mem m
      exact ⟨a, List.mem_cons_of_mem _ ha, hs⟩

/-- An operation, as far as the heap is concerned. -/
theorem Op.eval_typed (od : OneDef D) {rank : PyStr → Nat} (hD : ∀ c fs, D c fs → reachFields rank fs + 1 ≤ rank c) {H : Heap} {names : List HVal}
    {f : Nat → Option Ann} (h : H.Typed D f) {types : List Ann} (hn : ∀ (k : Nat) (a : Ann), types[k]? = some a → ∃ b, names[k]? = some (.ref b) ∧ f b = some a)
    {op : Op} {ρ : Ann} (ho : op.Typed D types ρ) (depth : Nat) (s : ByteHandler) :
    (∃ v H' g, op.eval depth names H s = .ok (v, H', s) ∧ Extends f g ∧ Heap.Typed D H' g ∧ v.Suits g ρ) ∨
      ∃ e, op.eval depth names H s = .error e ∧ op.MayRaise e := by
  have refl : Extends f f := fun _ _ e => e
  have obj : ∀ {o : Nat} {a : Ann}, types[o]? = some a → ∃ b c, named names o = .ref b ∧ f b = some a ∧ H[b]? = some c ∧ c.Suits D f a := by
    intro o a e
    obtain ⟨b, h1, h2⟩ := hn o a e
    obtain ⟨c, h3, h4⟩ := h b a h2
    exact ⟨b, c, by unfold named; rw [h1]; rfl, h2, h3, h4⟩
  have lst : ∀ {o : Nat} {a : Ann}, types[o]? = some (.list a) → ∃ b vs, named names o = .ref b ∧ f b = some (.list a) ∧ H[b]? = some (.list vs) ∧
      ∀ v ∈ vs, HVal.Suits f a v := by
    intro o a e
    obtain ⟨b, c, h1, h2, h3, h4⟩ := obj e
    cases h4 with
    | list k => exact ⟨b, _, h1, h2, h3, k⟩
  have tup : ∀ {o : Nat} {as : List Ann}, types[o]? = some (.tuple as) → ∃ b vs, named names o = .ref b ∧ H[b]? = some (.tuple vs) ∧ HVal.SuitsAll f as vs := by
    intro o a e
    obtain ⟨b, c, h1, h2, h3, h4⟩ := obj e
    cases h4 with
    | tuple k => exact ⟨b, _, h1, h3, k⟩
  have ins : ∀ {o : Nat} {c : PyStr} {fs : List (PyStr × Ann)}, types[o]? = some (.cls c) → D c fs → ∃ b vs, named names o = .ref b ∧ f b = some (.cls c) ∧
      H[b]? = some (.record c vs) ∧ vs.map (·.1) = fs.map (·.1) ∧ HVal.SuitsAll f (fs.map (·.2)) (vs.map (·.2)) := by
    intro o c fs e d
    obtain ⟨b, c, h1, h2, h3, h4⟩ := obj e
    cases h4 with
    | cls d' e k =>
      cases od _ _ _ d d'
      exact ⟨b, _, h1, h2, h3, e, k⟩
  have pos : ∀ {n : Nat} {i : Int} {j : Nat}, pyIndex n i = some j → j < n := fun e => position_lt (by rw [← pyIndex_eq]; exact e)
  cases ho with
  | @getAttr o c n fs a ho hd ha =>
    obtain ⟨b, vs, h1, h2, h3, h4, h5⟩ := ins ho hd
    obtain ⟨v, k1, k2⟩ := attr_suits h4 h5 ha
    refine .inl ⟨v, H, f, ?_, refl, h, k2⟩
    show HReader.getAttr (named names o) n H s = _
    unfold HReader.getAttr
    rw [h1, HReader.bind_ok (cell_run h3 _ s)]
    simp only [k1]
    rfl
  | @getItem o i a ho =>
    obtain ⟨b, vs, h1, h2, h3, h4⟩ := lst ho
    show (∃ v H' g, HReader.getItemAt (named names o) i H s = _ ∧ _) ∨ ∃ e, HReader.getItemAt (named names o) i H s = _ ∧ _
    unfold HReader.getItemAt
    rw [h1, HReader.bind_ok (cell_run h3 _ s)]
    dsimp only
    cases e : pyIndex vs.length i with
    | none => exact .inr ⟨_, rfl, rfl⟩
    | some j =>
      have hj := pos e
      simp only [List.getElem?_eq_getElem hj]
      exact .inl ⟨_, H, f, rfl, refl, h, h4 _ (List.getElem_mem hj)⟩
  | @getItemTuple o i as j a ho hp ha =>
    obtain ⟨b, vs, h1, h3, h4⟩ := tup ho
    have hj : j < vs.length := by rw [← h4.length]; exact position_lt hp
    refine .inl ⟨vs[j], H, f, ?_, refl, h, h4.item ha (List.getElem?_eq_getElem hj)⟩
    show HReader.getItemAt (named names o) i H s = _
    unfold HReader.getItemAt
    rw [h1, HReader.bind_ok (cell_run h3 _ s)]
    dsimp only
    rw [pyIndex_eq, ← h4.length, hp]
    simp only [List.getElem?_eq_getElem hj]
    rfl
  | @len o a ho =>
    obtain ⟨b, vs, h1, h2, h3, h4⟩ := lst ho
    refine .inl ⟨.int vs.length, H, f, ?_, refl, h, .int _⟩
    show (HReader.len (named names o) >>= fun n => pure (HVal.int n)) H s = _
    have : HReader.len (named names o) H s = .ok (vs.length, H, s) := by
      unfold HReader.len
      rw [h1, HReader.bind_ok (cell_run h3 _ s)]
      rfl
    rw [HReader.bind_ok this]
    rfl
  | @lenTuple o as ho =>
    obtain ⟨b, vs, h1, h3, h4⟩ := tup ho
    refine .inl ⟨.int vs.length, H, f, ?_, refl, h, .int _⟩
    show (HReader.len (named names o) >>= fun n => pure (HVal.int n)) H s = _
    have : HReader.len (named names o) H s = .ok (vs.length, H, s) := by
      unfold HReader.len
      rw [h1, HReader.bind_ok (cell_run h3 _ s)]
      rfl
    rw [HReader.bind_ok this]
    rfl
  | same => exact .inl ⟨_, H, f, rfl, refl, h, .int _⟩
  | @setAttr o c n fs a v ho hd ha hv =>
    obtain ⟨b, vs, h1, h2, h3, h4, h5⟩ := ins ho hd
    obtain ⟨w, k1, _⟩ := attr_suits h4 h5 ha
    obtain ⟨k2, k3⟩ := assign_suits (arg_suits_value hn hv) h4 h5 ha
    refine .inl ⟨.none, _, f, ?_, refl, h.set h2 (.cls hd k2 k3), .none⟩
    show (HReader.setAttr (named names o) n (v.value names) >>= fun _ => pure HVal.none) H s = _
    have : HReader.setAttr (named names o) n (v.value names) H s = .ok ((), H.set b (.record c (assign n (v.value names) vs)), s) := by
      unfold HReader.setAttr
      rw [h1, HReader.bind_ok (cell_run h3 _ s)]
      simp only [k1]
      rfl
    rw [HReader.bind_ok this]
    rfl
  | @setItem o i a v ho hv =>
    obtain ⟨b, vs, h1, h2, h3, h4⟩ := lst ho
    show (∃ v' H' g, HReader.setItemAt (named names o) i (v.value names) H s = _ ∧ _) ∨ ∃ e, HReader.setItemAt (named names o) i (v.value names) H s = _ ∧ _
    unfold HReader.setItemAt
    rw [h1, HReader.bind_ok (cell_run h3 _ s)]
    dsimp only
    cases e : pyIndex vs.length i with
    | none => exact .inr ⟨_, rfl, rfl⟩
    | some j =>
      refine .inl ⟨.none, _, f, rfl, refl, h.set h2 (.list fun w hw => ?_), .none⟩
      rcases List.mem_or_eq_of_mem_set hw with hw | rfl
      · exact h4 w hw
      · exact arg_suits_value hn hv
  | @append o a v ho hv =>
    obtain ⟨b, vs, h1, h2, h3, h4⟩ := lst ho
    refine .inl ⟨.none, H.set b (.list (vs ++ [v.value names])), f, ?_, refl, h.set h2 (.list fun w hw => ?_), .none⟩
    · show (HReader.append (named names o) (v.value names) >>= fun _ => pure HVal.none) H s = _
      have : HReader.append (named names o) (v.value names) H s = .ok ((), H.set b (.list (vs ++ [v.value names])), s) := by
        unfold HReader.append
        rw [h1, HReader.bind_ok (cell_run h3 _ s)]
        rfl
      rw [HReader.bind_ok this]
      rfl
    · rcases List.mem_append.1 hw with hw | hw
      · exact h4 w hw
      · rw [List.mem_singleton.1 hw]; exact arg_suits_value hn hv
  | @insert o i a v ho hv =>
    obtain ⟨b, vs, h1, h2, h3, h4⟩ := lst ho
    refine .inl ⟨.none, _, f, ?_, refl, h.set h2 (.list (mem_take_drop h4 (i := pyBound vs.length i) (j := pyBound vs.length i) (w := [v.value names]) fun w hw => ?_)), .none⟩
    · show HReader.insertAt (named names o) i (v.value names) H s = _
      unfold HReader.insertAt
      rw [h1, HReader.bind_ok (cell_run h3 _ s)]
      rfl
    · rw [List.mem_singleton.1 hw]; exact arg_suits_value hn hv
  | @pop o i a ho =>
    obtain ⟨b, vs, h1, h2, h3, h4⟩ := lst ho
    show (∃ v' H' g, HReader.popAt (named names o) i H s = _ ∧ _) ∨ ∃ e, HReader.popAt (named names o) i H s = _ ∧ _
    unfold HReader.popAt
    rw [h1, HReader.bind_ok (cell_run h3 _ s)]
    dsimp only
    cases e : pyIndex vs.length i with
    | none => exact .inr ⟨_, rfl, rfl⟩
    | some j =>
      have hj := pos e
      simp only [List.getElem?_eq_getElem hj]
      exact .inl ⟨_, _, f, rfl, refl, h.set h2 (.list fun w hw => h4 w (List.mem_of_mem_eraseIdx hw)), h4 _ (List.getElem_mem hj)⟩
  | @delItem o i a ho =>
    obtain ⟨b, vs, h1, h2, h3, h4⟩ := lst ho
    show (∃ v' H' g, HReader.delItemAt (named names o) i H s = _ ∧ _) ∨ ∃ e, HReader.delItemAt (named names o) i H s = _ ∧ _
    unfold HReader.delItemAt
    rw [h1, HReader.bind_ok (cell_run h3 _ s)]
    dsimp only
    cases e : pyIndex vs.length i with
    | none => exact .inr ⟨_, rfl, rfl⟩
    | some j => exact .inl ⟨_, _, f, rfl, refl, h.set h2 (.list fun w hw => h4 w (List.mem_of_mem_eraseIdx hw)), .none⟩
  | @delSlice o i j a ho =>
    obtain ⟨b, vs, h1, h2, h3, h4⟩ := lst ho
    refine .inl ⟨.none, _, f, ?_, refl, h.set h2 (.list (mem_take_drop h4 (i := pyBound vs.length i) (j := max (pyBound vs.length i) (pyBound vs.length j)) (w := []) fun w hw => nomatch hw)), .none⟩
    show HReader.delSliceAt (named names o) i j H s = _
    unfold HReader.delSliceAt
    rw [h1, HReader.bind_ok (cell_run h3 _ s)]
    rfl
  | @newList vs a hv =>
    refine .inl ⟨_, _, withType f H.length (.list a), rfl, withType_extends (h.fresh (Nat.le_refl _)), h.alloc (.list fun w hw => ?_), .ref (by simp [withType])⟩
    obtain ⟨x, hx, rfl⟩ := List.mem_map.1 hw
    exact arg_suits_value hn (hv x hx)
  | @newTuple vs as hv =>
    exact .inl ⟨_, _, withType f H.length (.tuple as), rfl, withType_extends (h.fresh (Nat.le_refl _)), h.alloc (.tuple (arg_suits_values hn hv)), .ref (by simp [withType])⟩
  | @new c fs vs hd he hv =>
    refine .inl ⟨_, _, withType f H.length (.cls c), rfl, withType_extends (h.fresh (Nat.le_refl _)), h.alloc (.cls hd ?_ ?_), .ref (by simp [withType])⟩
    · rw [List.map_map]; exact he
    · rw [List.map_map]
      have := arg_suits_values hn hv
      rw [List.map_map] at this
      exact this
  | @deepcopy o a ho =>
    obtain ⟨b, c, h1, h2, h3, h4⟩ := obj ho
    show (∃ v H' g, (HReader.deepcopy depth (named names o) [] >>= fun x => pure x.1) H s = _ ∧ _) ∨
      ∃ e, (HReader.deepcopy depth (named names o) [] >>= fun x => pure x.1) H s = _ ∧ _
    rw [h1]
    rcases h.deepcopy hD (v := .ref b) (.ref h2) depth s with ⟨k, _⟩ | ⟨H', M, w, g, k1, k2, k3, k4⟩
    · refine .inr ⟨.recursionError, ?_, rfl⟩
      exact HReader.bind_error k
    · refine .inl ⟨w, H', g, ?_, k2, k3, k4⟩
      rw [HReader.bind_ok k1]
      rfl
  | @slice o i j a ho =>
    obtain ⟨b, vs, h1, h2, h3, h4⟩ := lst ho
    refine .inl ⟨.ref H.length, H ++ [.list ((vs.take (pyBound vs.length j)).drop (pyBound vs.length i))], withType f H.length (.list a), ?_,
      withType_extends (h.fresh (Nat.le_refl _)), h.alloc (.list fun w hw => h4 w (List.mem_of_mem_take (List.mem_of_mem_drop hw))), .ref (by simp [withType])⟩
    show HReader.sliceAt (named names o) i j H s = _
    unfold HReader.sliceAt
    rw [h1, HReader.bind_ok (cell_run h3 _ s)]
    rfl
  | @sliceTuple o i j as ho =>
    obtain ⟨b, vs, h1, h3, h4⟩ := tup ho
    refine .inl ⟨.ref H.length, H ++ [.tuple (sliceOf vs i j)], withType f H.length (.tuple (sliceOf as i j)), ?_, withType_extends (h.fresh (Nat.le_refl _)),
      h.alloc (.tuple ?_), .ref (by simp [withType])⟩
    · show HReader.sliceAt (named names o) i j H s = _
      unfold HReader.sliceAt
      rw [h1, HReader.bind_ok (cell_run h3 _ s)]
      dsimp only
      rw [pyBound_eq, pyBound_eq]
      rfl
    · unfold sliceOf
      rw [h4.length]
      exact (h4.take _).drop _
  | @extend o p a ho hp =>
    obtain ⟨b, vs, h1, h2, h3, h4⟩ := lst ho
    obtain ⟨b', vs', k1, k2, k3, k4⟩ := lst hp
    refine .inl ⟨.none, H.set b (.list (vs ++ vs')), f, ?_, refl, h.set h2 (.list fun w hw => ?_), .none⟩
    · show HReader.extendBy (named names o) (named names p) H s = _
      unfold HReader.extendBy
      rw [h1, k1, HReader.bind_ok (cell_run h3 _ s)]
      dsimp only
      rw [HReader.bind_ok (cell_run k3 _ s)]
      rfl
    · rcases List.mem_append.1 hw with hw | hw
      · exact h4 w hw
      · exact k4 w hw
  | @extendTuple o p a as ho hp has =>
    obtain ⟨b, vs, h1, h2, h3, h4⟩ := lst ho
    obtain ⟨b', vs', k1, k3, k4⟩ := tup hp
    refine .inl ⟨.none, H.set b (.list (vs ++ vs')), f, ?_, refl, h.set h2 (.list fun w hw => ?_), .none⟩
    · show HReader.extendBy (named names o) (named names p) H s = _
      unfold HReader.extendBy
      rw [h1, k1, HReader.bind_ok (cell_run h3 _ s)]
      dsimp only
      rw [HReader.bind_ok (cell_run k3 _ s)]
      rfl
    · rcases List.mem_append.1 hw with hw | hw
      · exact h4 w hw
      · obtain ⟨x, hx, hs⟩ := k4.mem hw
        rw [← has x hx]; exact hs
  | @copy o a ho =>
    obtain ⟨b, c, h1, h2, h3, h4⟩ := obj ho
    have run : ∀ v H', (match c with | .tuple _ => pure (.ref b) | .list items => alloc (.list items) | .record cls attrs => alloc (.record cls attrs) : HReader HVal) H s = .ok (v, H', s) →
        (Op.copy o).eval depth names H s = .ok (v, H', s) := by
      intro v H' e
      show HReader.copy (named names o) H s = _
      rw [h1]
      unfold HReader.copy
      dsimp only
      rw [HReader.bind_ok (cell_run h3 _ s)]
      exact e
    cases h4 with
    | list k => exact .inl ⟨_, _, withType f H.length (.list _), run _ _ rfl, withType_extends (h.fresh (Nat.le_refl _)), h.alloc (.list k), .ref (by simp [withType])⟩
    | tuple k => exact .inl ⟨_, _, f, run _ _ rfl, refl, h, .ref h2⟩
    | cls d e k => exact .inl ⟨_, _, withType f H.length (.cls _), run _ _ rfl, withType_extends (h.fresh (Nat.le_refl _)), h.alloc (.cls d e k), .ref (by simp [withType])⟩

/-- An operation that is accepted; the objects that were there keep their types. -/
theorem Memory.op_typed_by (od : OneDef D) {rank : PyStr → Nat} (hD : ∀ c fs, D c fs → reachFields rank fs + 1 ≤ rank c) {W : Memory} {types : List Ann}
    {f : Nat → Option Ann} (hf : W.heap.Typed D f) (hN : NamesTyped f W.names types) {op : Op} {ρ : Ann} (ho : op.Typed D types ρ) (depth : Nat) (s : ByteHandler) :
    (∃ v g, (W.op depth s op).1 = .ok v ∧ v.Suits types.length ρ ∧ Extends f g ∧ (W.op depth s op).2.heap.Typed D g ∧
        NamesTyped g (W.op depth s op).2.names (extend types ρ v)) ∨
      ∃ e, W.op depth s op = (.error e, W) ∧ op.MayRaise e := by
  obtain ⟨H, names⟩ := W
  dsimp only at hf hN
  unfold Memory.op
  dsimp only
  rcases Op.eval_typed od hD hf hN.2 ho depth s with ⟨v, H', g, e, k1, k2, k3⟩ | ⟨x, e, k⟩
  · rw [e]
    obtain ⟨q1, q2, q3⟩ := Memory.hand_typed k2 (hN.extends k1) k3
    exact .inl ⟨_, g, rfl, q1, k1, by dsimp only; rw [q2]; exact k2, q3⟩
  · rw [e]
    exact .inr ⟨x, rfl, k⟩

/-- An operation that is accepted. -/
theorem Memory.op_typed (od : OneDef D) {rank : PyStr → Nat} (hD : ∀ c fs, D c fs → reachFields rank fs + 1 ≤ rank c) {W : Memory} {types : List Ann}
    (h : W.Typed D types) {op : Op} {ρ : Ann} (ho : op.Typed D types ρ) (depth : Nat) (s : ByteHandler) :
    (∃ v, (W.op depth s op).1 = .ok v ∧ v.Suits types.length ρ ∧ (W.op depth s op).2.Typed D (extend types ρ v)) ∨
      ∃ e, W.op depth s op = (.error e, W) ∧ op.MayRaise e := by
  obtain ⟨f, hf, hN⟩ := h
  rcases Memory.op_typed_by od hD hf hN ho depth s with ⟨v, g, h1, h2, _, h3, h4⟩ | h
  · exact .inl ⟨v, h1, h2, g, h3, h4⟩
  · exact .inr h

/-- An object of type `DatFile` is written as some file. -/
theorem Memory.Typed.file {M : Memory} {types : List Ann} (h : M.Typed (Declares false) types) {o : Nat} (ho : types[o]? = some (.cls (lit "DatFile"))) :
    ∃ (d : DatFile) (t : ObjTree) (fp : List Nat), Rep M.heap (named M.names o) t fp ∧ d.Lengths ∧ Converts t (d.object false) ∧
      isDatFile M.heap (named M.names o) = true ∧ ∀ depth, 5 ≤ depth → W.toBytes M.heap depth (named M.names o) .UNDEFINED = d.toBytes := by
  obtain ⟨f, hf, hl, hn⟩ := h
  obtain ⟨b, h1, h2⟩ := hn o _ ho
  have e : named M.names o = .ref b := by unfold named; rw [h1]; rfl
  rw [e]
  obtain ⟨t, fp, r, hs⟩ := hf.value Declares.reach _ (Nat.le_refl _) (.ref h2)
  obtain ⟨d, k1, k2⟩ := (C48_fits_iff t).1 hs
  obtain ⟨c, h3, h4⟩ := hf b _ h2
  refine ⟨d, t, fp, r, k1, k2, ?_, fun depth hd => C47_save _ _ t fp r d k2.carries k1.sized depth hd _⟩
  cases h4 with
  | cls => unfold isDatFile; dsimp only; rw [h3]; exact decide_eq_true rfl

/-- An action that is accepted; the objects that were there keep their types. -/
theorem Situation.act_typed_by (z : Zlib) (env : Environment) {depth : Nat} (hn : 5 ≤ depth) {S : Situation Memory} {types : List Ann}
    {f : Nat → Option Ann} (hf : S.memory.heap.Typed (Declares false) f) (hN : NamesTyped f S.memory.names types) {act : Action} {ρ : Ann} (ha : act.Typed (Declares false) types ρ) :
    (∃ v g, (S.act z env depth act).1 = .returned v ∧ v.Suits types.length ρ ∧ Extends f g ∧ (S.act z env depth act).2.memory.heap.Typed (Declares false) g ∧
        NamesTyped g (S.act z env depth act).2.memory.names (extend types ρ v)) ∨
      (∃ e, (S.act z env depth act).1 = .raised e ∧ act.MayRaise e ∧ (S.act z env depth act).2.memory = S.memory) ∨
      ((S.act z env depth act).1 = .crashed ∧ ∃ o p, act = .save o p) := by
  have h : S.memory.Typed (Declares false) types := ⟨f, hf, hN⟩
  cases ha with
  | @op o _ ho =>
    unfold Situation.act
    dsimp only
    rcases Memory.op_typed_by Declares.oneDef Declares.reach hf hN ho depth (ByteHandler.new []) with ⟨v, g, h1, h2, h3⟩ | ⟨e, h1, h2⟩
    · generalize S.memory.op depth (ByteHandler.new []) o = x at h1 h3
      obtain ⟨x, m⟩ := x
      cases h1
      exact .inl ⟨v, g, rfl, h2, h3⟩
    · rw [h1]; exact .inr (.inl ⟨e, rfl, h2, rfl⟩)
  | @parse p =>
    have hp := C47_parse z S.disk p S.memory.heap
    unfold Situation.act
    dsimp only
    cases e : DatFile.parse z S.disk p with
    | crashed => rw [e] at hp; exact hp.elim
    | raised x =>
      rw [e] at hp
      rw [hp]
      refine .inr (.inl ⟨x, rfl, ?_, rfl⟩)
      unfold DatFile.parse at e
      split at e
      · cases e; exact .inl rfl
      · split at e
        · cases e; exact .inr (.inl rfl)
        · split at e
          · rename_i he
            cases e
            unfold DatFile.ofData at he
            split at he
            · rename_i h9
              cases he
              rcases C10_datfile_errors _ _ h9 with h | h | h | h <;> simp [Action.MayRaise, h]
            · cases he
          · cases e
    | returned d =>
      rw [e] at hp
      obtain ⟨o, N, fp, h1, h2, h3, h4, _, hw⟩ := hp
      rw [h1]
      have hs : Suits (Declares false) (.cls (lit "DatFile")) (d.object d.old) := (C48_fits_iff _).2 ⟨d, DatFile.lengths hw, DatFile.converts _ d⟩
      obtain ⟨g, g1, g2, g3⟩ := hf.loaded h2 h3 h4 hs
      obtain ⟨q1, q2, q3⟩ := Memory.hand_typed g2 (hN.extends g1) g3
      exact .inl ⟨_, g, rfl, q1, g1, by dsimp only; rw [q2]; exact g2, q3⟩
  | @save o p ho =>
    obtain ⟨d, t, fp, h1, h2, h3, h4, h5⟩ := h.file ho
    unfold Situation.act W.save
    dsimp only
    rw [if_pos h4, h5 depth hn]
    cases e : d.toBytes with
    | error x =>
      refine .inr (.inl ⟨x, rfl, ?_, rfl⟩)
      rcases C37_datfile_errors d x e with (h | h | h) | ⟨h, _⟩ | ⟨h, _⟩ | ⟨h, _⟩ <;> simp [Action.MayRaise, h]
    | ok bs =>
      dsimp only
      cases hft : env.fault with
      | none =>
        have : writeBytes env S.disk p (z.compress bs) = (runOps S.disk (writeOps env p (z.compress bs)), .returned ()) := by
          unfold writeBytes; rw [hft]
        rw [this]
        exact .inl ⟨_, f, rfl, .none, fun _ _ e => e, hf, hN⟩
      | some kc =>
        obtain ⟨k, c⟩ := kc
        have : writeBytes env S.disk p (z.compress bs) =
            (runOps S.disk ((writeOps env p (z.compress bs)).take k), if c then .crashed else .raised .osError) := by
          unfold writeBytes; rw [hft]
        rw [this]
        cases c with
        | true => exact .inr (.inr ⟨rfl, o, p, rfl⟩)
        | false => exact .inr (.inl ⟨_, rfl, .inl rfl, rfl⟩)

/-- An action that is accepted. -/
theorem Situation.act_typed (z : Zlib) (env : Environment) {depth : Nat} (hn : 5 ≤ depth) {S : Situation Memory} {types : List Ann}
    (h : S.memory.Typed (Declares false) types) {act : Action} {ρ : Ann} (ha : act.Typed (Declares false) types ρ) :
    (∃ v, (S.act z env depth act).1 = .returned v ∧ v.Suits types.length ρ ∧ (S.act z env depth act).2.memory.Typed (Declares false) (extend types ρ v)) ∨
      (∃ e, (S.act z env depth act).1 = .raised e ∧ act.MayRaise e ∧ (S.act z env depth act).2.memory = S.memory) ∨
      ((S.act z env depth act).1 = .crashed ∧ ∃ o p, act = .save o p) := by
  obtain ⟨f, hf, hN⟩ := h
  rcases Situation.act_typed_by z env hn hf hN ha with ⟨v, g, h1, h2, _, h3, h4⟩ | h
  · exact .inl ⟨v, h1, h2, g, h3, h4⟩
  · exact .inr h

/-- A script that is accepted. -/
theorem Script.typed {P : Script σ α} {T : σ → List Ann → Prop} (hP : P.Typed (Declares false) T) (z : Zlib) (env : Nat → Environment) {depth : Nat}
    (hn : 5 ≤ depth) {st : σ} {S : Situation Memory} {types : List Ann} (ht : T st types) (hS : S.memory.Typed (Declares false) types) (n : Nat)
    {st' : σ} {S' : Situation Memory} (hm : P.run z env depth n (.running st S) = .running st' S') :
    ∃ types', T st' types' ∧ S'.memory.Typed (Declares false) types' := by
  induction n generalizing st' S' with
  | zero => cases hm; exact ⟨types, ht, hS⟩
  | succ n ih =>
    have hm : P.step z (env n) depth (P.run z env depth n (.running st S)) = .running st' S' := hm
    cases e : P.run z env depth n (.running st S) with
    | crashed disk => rw [e] at hm; cases hm
    | running st1 S1 =>
      obtain ⟨types1, ht1, hS1⟩ := ih e
      rw [e] at hm
      unfold Script.step at hm
      dsimp only at hm
      cases e1 : P st1 with
      | stop r => rw [e1] at hm; cases hm; exact ⟨types1, ht1, hS1⟩
      | call a next =>
        rw [e1] at hm
        dsimp only at hm
        obtain ⟨ρ, h1, h2, h3⟩ := hP _ _ _ _ ht1 e1
        have := Situation.act_typed z (env n) hn hS1 h1
        generalize S1.act z (env n) depth a = x at this hm
        obtain ⟨x, S2⟩ := x
        rcases this with ⟨v, rfl, k1, k2⟩ | ⟨x, rfl, k1, k2⟩ | ⟨rfl, _⟩
        · cases hm; exact ⟨_, h2 v k1, k2⟩
        · cases hm; exact ⟨_, h3 x k1, by dsimp only at k2; rw [k2]; exact hS1⟩
        · cases hm

/-- A program that is accepted. -/
theorem Prog.typed_exec (z : Zlib) (env : Nat → Environment) {depth : Nat} (hn : 5 ≤ depth) {Q : List Ann → α → Prop} :
    ∀ (p : Prog α) (i : Nat) (S : Situation Memory) (types : List Ann), p.Typed (Declares false) Q types → S.memory.Typed (Declares false) types →
    match p.exec z env depth i S with
    | (.returned a, _, S') => ∃ types', Q types' a ∧ S'.memory.Typed (Declares false) types'
    | (.raised e, _, S') => e ≠ .typeError ∧ e ≠ .attributeError ∧ ∃ types', S'.memory.Typed (Declares false) types'
    | (.crashed, _, _) => True
  | .done a, i, S, types, hp, h => by
    cases hp with
    | done q => exact ⟨types, q, h⟩
  | .raised e, i, S, types, hp, h => by
    cases hp with
    | raised h1 h2 => exact ⟨h1, h2, types, h⟩
  | .act a next handler, i, S, types, hp, h => by
    cases hp with
    | act ha h1 h2 =>
      have := Situation.act_typed z (env i) hn h ha
      unfold Prog.exec
      generalize S.act z (env i) depth a = x at this
      obtain ⟨x, S2⟩ := x
      rcases this with ⟨v, rfl, k1, k2⟩ | ⟨x, rfl, k1, k2⟩ | ⟨rfl, _⟩
      · exact Prog.typed_exec z env hn (next v) (i + 1) S2 _ (h1 v k1) k2
      · exact Prog.typed_exec z env hn (handler x) (i + 1) S2 _ (h2 x k1) (by dsimp only at k2; rw [k2]; exact h)
      · trivial

/-! ## programs put together -/

theorem Prog.Typed.weaken {Q R : List Ann → α → Prop} {types : List Ann} {p : Prog α} (h : p.Typed D Q types) (k : ∀ ts a, Q ts a → R ts a) : p.Typed D R types := by
  induction h with
  | done q => exact .done (k _ _ q)
  | raised h1 h2 => exact .raised h1 h2
  | act ha _ _ ih1 ih2 => exact .act ha ih1 ih2

theorem Prog.Typed.then {Q : List Ann → α → Prop} {R : List Ann → β → Prop} {types : List Ann} {p : Prog α} {q : α → Prog β} (h : p.Typed D Q types)
    (k : ∀ ts a, Q ts a → (q a).Typed D R ts) : (p >>= q).Typed D R types := by
  show (p.bind q).Typed D R types
  induction h with
  | done h => exact k _ _ h
  | raised h1 h2 => exact .raised h1 h2
  | act ha _ _ ih1 ih2 => exact .act ha ih1 ih2

theorem Action.raises_nothing_else {a : Action} {e : PyErr} (h : a.MayRaise e) : e ≠ .typeError ∧ e ≠ .attributeError := by
  cases a with
  | op o =>
    have h : o.MayRaise e := h
    cases o <;> first | exact h.elim | (have h : e = _ := h; subst h; exact ⟨nofun, nofun⟩)
  | parse p => rcases h with h | h | h | h | h | h <;> subst h <;> exact ⟨nofun, nofun⟩
  | save o p => rcases h with h | h | h | h | h | h | h <;> subst h <;> exact ⟨nofun, nofun⟩

/-- One action. -/
theorem Prog.Typed.call {types : List Ann} {a : Action} {ρ : Ann} (h : a.Typed D types ρ) :
    (Prog.call a).Typed D (fun ts v => v.Suits types.length ρ ∧ ts = extend types ρ v) types :=
  .act h (fun _ hv => .done ⟨hv, rfl⟩) fun e he => .raised (Action.raises_nothing_else he).1 (Action.raises_nothing_else he).2

/-- An expression whose value is an object, and not `None`. -/
theorem Prog.Typed.object {types : List Ann} {o : Op} {ρ : Ann} (h : o.Typed D types ρ) (hρ : (∃ a, ρ = .list a) ∨ (∃ as, ρ = .tuple as) ∨ ∃ c, ρ = .cls c) :
    (Prog.object o).Typed D (fun ts x => x = types.length ∧ ts = types ++ [ρ]) types := by
  refine (Prog.Typed.call (.op h)).then fun ts v ⟨hv, e⟩ => ?_
  subst e
  rcases hρ with ⟨a, rfl⟩ | ⟨as, rfl⟩ | ⟨c, rfl⟩ <;> cases hv <;> exact .done ⟨rfl, rfl⟩

/-- An expression whose value is a number. -/
theorem Prog.Typed.int {types : List Ann} {o : Op} (h : o.Typed D types .int) : (Prog.int o).Typed D (fun ts _ => ts = types) types := by
  refine (Prog.Typed.call (.op h)).then fun ts v ⟨hv, e⟩ => ?_
  subst e
  cases hv
  exact .done rfl

theorem Seen.Suits.nothing {n : Nat} {types : List Ann} {v : Seen} (h : Seen.Suits n (.opt .int) v) : extend types (.opt .int) v = types := by
  cases h with
  | none => rfl
  | some h => cases h; rfl

/-- A statement. -/
theorem Prog.Typed.statement {types : List Ann} {o : Op} (h : o.Typed D types (.opt .int)) : (Prog.statement o).Typed D (fun ts _ => ts = types) types := by
  refine (Prog.Typed.call (.op h)).then fun ts v ⟨hv, e⟩ => ?_
  rw [hv.nothing] at e
  exact .done e

/-- `for i in range(…): body(i)`, for a body that is accepted as long as the objects of `base` are known. -/
theorem Prog.Typed.forFrom {base : List Ann} {body : Nat → Prog PUnit} (h : ∀ i types, base <+: types → (body i).Typed D (fun ts _ => base <+: ts) types) :
    ∀ (n i : Nat) (types : List Ann), base <+: types → (Prog.forFrom body i n).Typed D (fun ts _ => base <+: ts) types
  | 0, _, _, hb => .done hb
  | n + 1, i, types, hb => (h i types hb).then fun ts _ hts => Prog.Typed.forFrom h n (i + 1) ts hts

/-- `for x in l: if x is not None: body(x)`. -/
theorem Prog.Typed.forEach {base : List Ann} {l : Nat} {a b : Ann} (hl : base[l]? = some (.list a)) (hb : b.strip = b) (hab : a = b ∨ a = .opt b) {body : Nat → Prog PUnit}
    (h : ∀ x types, base <+: types → types[x]? = some b → (body x).Typed D (fun ts _ => base <+: ts) types) {types : List Ann} (ht : base <+: types) :
    (Prog.forEach l body).Typed D (fun ts _ => base <+: ts) types := by
  have look : ∀ {ts : List Ann} {k : Nat} {c : Ann}, base <+: ts → base[k]? = some c → ts[k]? = some c := by
    rintro _ k c ⟨ts, rfl⟩ hk
    rw [List.getElem?_append_left (List.getElem?_eq_some_iff.1 hk).1]
    exact hk
  refine (Prog.Typed.int (.len (look ht hl))).then fun ts n e => ?_
  subst e
  refine Prog.Typed.forFrom (fun i types hb' => ?_) _ _ _ ht
  refine (Prog.Typed.call (.op (.getItem (look hb' hl)))).then fun ts v ⟨hv, e⟩ => ?_
  have ext : ∀ {k : Kind}, Seen.Suits types.length a (.object types.length k) → base <+: types ++ [b] ∧ extend types a (.object types.length k) = types ++ [b] := by
    intro k _
    refine ⟨hb'.trans (List.prefix_append _ _), ?_⟩
    rcases hab with rfl | rfl
    · simp [extend, hb]
    · simp [extend, Ann.strip, hb]
  have num : ∀ {x : Nat} {k : Kind} {c : Ann}, Seen.Suits types.length c (.object x k) → x = types.length := by
    intro x k c h
    generalize e : Seen.object x k = w at h
    induction h with
    | some _ ih => exact ih e
    | list => cases e; rfl
    | tuple => cases e; rfl
    | cls => cases e; rfl
    | _ => cases e
  subst e
  cases v with
  | object x k =>
    cases num hv
    obtain ⟨e1, e2⟩ := ext hv
    rw [e2]
    exact h _ _ e1 (by simp)
  | none => exact .done hb'
  | int => exact .done hb'
  | float => exact .done hb'
  | str => exact .done hb'

end Genie
