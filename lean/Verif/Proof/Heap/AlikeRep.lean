import Verif.Proof.Heap.RaisesWriters
import Verif.Proof.Heap.Local
import Verif.Proof.Heap.CopyTypes
/-!
# Objects that unfold to a tree
-/

namespace Genie
open HReader ObjTree

/-- The shape of a tree. -/
def ObjTree.shape : ObjTree → Shape
  | .none => .none
  | .int i => .int i
  | .float x => .float x
  | .str s => .str s
  | .list ts => .list ts.length
  | .tuple ts => .tuple ts.length
  | .obj c ts => .obj c (ts.map (·.1))

theorem RepAttrs.same_names {H : Heap} : ∀ {vs ts fps}, RepAttrs H vs ts fps → vs.map (·.1) = ts.map (·.1)
  | _, _, _, .nil => rfl
  | _, _, _, .cons _ rs => by simp only [List.map_cons, rs.same_names]

theorem Rep.shape {H : Heap} {v t fp} (r : Rep H v t fp) : H.shape v = t.shape := by
  cases r with
  | none => rfl
  | int => rfl
  | float => rfl
  | str => rfl
  | list hc rs => simp only [Heap.shape, hc, ObjTree.shape, rs.length]
  | tuple hc rs => simp only [Heap.shape, hc, ObjTree.shape, rs.length]
  | obj hc rs => simp only [Heap.shape, hc, ObjTree.shape, rs.same_names]

theorem Rep.seen {H : Heap} {v t fp} (r : Rep H v t fp) (p : ObjPath) : (H.follow v p).map H.shape = (t.get p).map ObjTree.shape := by
  cases e : H.follow v p with
  | some w =>
    obtain ⟨u, f, h1, h2⟩ := ObjTree.get_some_of_follow r e
    rw [h1]
    simp only [Option.map_some, h2.shape]
  | none =>
    cases e' : t.get p with
    | none => rfl
    | some u =>
      obtain ⟨w, h, _⟩ := r.get e'
      rw [e] at h
      cases h

theorem Rep.alike {H1 H2 : Heap} {v w t f g} (r1 : Rep H1 v t f) (r2 : Rep H2 w t g) : Alike H1 v H2 w := fun p => by
  rw [r1.seen, r2.seen]

theorem ObjTree.height_pos (t : ObjTree) : 1 ≤ t.height := by
  cases t <;> simp only [ObjTree.height] <;> omega

theorem RepItems.mem {H : Heap} {vs ts fps x} (rs : RepItems H vs ts fps) (hx : x ∈ vs) : ∃ u f, Rep H x u f ∧ u.height ≤ heightItems ts := by
  obtain ⟨i, hi⟩ := List.getElem?_of_mem hx
  have hl : i < ts.length := by
    rw [← rs.length]
    exact (List.getElem?_eq_some_iff.1 hi).1
  obtain ⟨w, f, _, _, h1, h2, _⟩ := rs.hole (i := i) (List.getElem?_eq_getElem hl)
  rw [hi] at h1
  cases h1
  exact ⟨_, f, h2, height_item (List.getElem?_eq_getElem hl)⟩

theorem Rep.iter {H : Heap} {v t fp xs} (r : Rep H v t fp) (h : W.iter H (.ok v) = .ok xs) : ∀ x ∈ xs, ∃ u f, Rep H x u f ∧ u.height ≤ t.height := by
  intro x hx
  cases r with
  | none => cases h
  | int => cases h
  | float => cases h
  | str s =>
    replace h := Except.ok.inj h
    subst h
    obtain ⟨c, _, rfl⟩ := List.mem_map.1 hx
    exact ⟨_, _, .str _, Nat.le_refl _⟩
  | list hc rs =>
    simp only [W.iter, bind, Except.bind, W.cell, hc] at h
    cases h
    obtain ⟨u, f, h1, h2⟩ := rs.mem hx
    exact ⟨u, f, h1, by simp only [ObjTree.height]; omega⟩
  | tuple hc rs =>
    simp only [W.iter, bind, Except.bind, W.cell, hc] at h
    cases h
    obtain ⟨u, f, h1, h2⟩ := rs.mem hx
    exact ⟨u, f, h1, by simp only [ObjTree.height]; omega⟩
  | obj hc rs => simp only [W.iter, bind, Except.bind, W.cell, hc] at h; cases h

theorem Rep.attr_below {H : Heap} {v t fp n x} (r : Rep H v t fp) (h : W.attr H v n = .ok x) : ∃ u f, Rep H x u f ∧ u.height + 1 ≤ t.height := by
  cases r with
  | none => cases h
  | int => cases h
  | float => cases h
  | str s => cases h
  | list hc rs => simp only [W.attr, W.cell, hc] at h; cases h
  | tuple hc rs => simp only [W.attr, W.cell, hc] at h; cases h
  | @obj _ _ _ ts _ hc rs =>
    simp only [W.attr, W.cell, hc] at h
    cases e : lookup n _ with
    | none => rw [e] at h; cases h
    | some w =>
      rw [e] at h
      cases h
      cases e2 : ObjTree.attrOf n ts with
      | none => rw [rs.none e2] at e; cases e
      | some u =>
        obtain ⟨w, f, _, _, h1, h2, _⟩ := rs.hole e2
        rw [e] at h1
        cases h1
        have := height_attr e2
        exact ⟨u, f, h2, by simp only [ObjTree.height]; omega⟩

theorem Rep.below_of {H : Heap} {v t fp x} (r : Rep H v t fp) (h : W.Below H v x) : ∃ u f, Rep H x u f ∧ u.height + 1 ≤ t.height := by
  rcases h with ⟨n, h⟩ | ⟨n, o, xs, h1, h2, h3⟩
  · exact r.attr_below h
  · obtain ⟨u, f, r1, e1⟩ := r.attr_below h1
    obtain ⟨u', f', r2, e2⟩ := r1.iter h2 x h3
    exact ⟨u', f', r2, by omega⟩

/-! ## what looks like a tree is one -/

theorem lookup_of_nodup {vs : List (PyStr × HVal)} {n : PyStr} {x : HVal} (nd : (vs.map (·.1)).Nodup) (h : (n, x) ∈ vs) : lookup n vs = some x := by
  induction vs with
  | nil => cases h
  | cons p vs ih =>
    obtain ⟨m, y⟩ := p
    rw [List.map_cons, List.nodup_cons] at nd
    unfold lookup
    rcases List.mem_cons.1 h with e | e
    · cases e; rw [if_pos rfl]
    · have : m ≠ n := fun k => nd.1 (k ▸ List.mem_map.2 ⟨(n, x), e, rfl⟩)
      rw [if_neg this]
      exact ih nd.2 e

mutual
theorem Rep.of_alike {H1 H2 : Heap} : ∀ {v w t f}, Rep H1 v t f → t.Named → Alike H1 v H2 w → ∃ g, Rep H2 w t g
  | _, w, _, _, .none, _, h => by cases h.cases; exact ⟨_, .none⟩
  | _, w, _, _, .int i, _, h => by cases h.cases; exact ⟨_, .int i⟩
  | _, w, _, _, .float x, _, h => by cases h.cases; exact ⟨_, .float x⟩
  | _, w, _, _, .str s, _, h => by cases h.cases; exact ⟨_, .str s⟩
  | _, w, _, _, .list hc rs, .list nm, h => by
    cases h.cases with
    | @ref a b k =>
      rw [hc] at k
      generalize e : H2[b]? = c at k
      cases k with
      | list hl hx =>
        obtain ⟨g, r⟩ := RepItems.of_alike rs nm hl hx
        exact ⟨_, .list e r⟩
  | _, w, _, _, .tuple hc rs, .tuple nm, h => by
    cases h.cases with
    | @ref a b k =>
      rw [hc] at k
      generalize e : H2[b]? = c at k
      cases k with
      | tuple hl hx =>
        obtain ⟨g, r⟩ := RepItems.of_alike rs nm hl hx
        exact ⟨_, .tuple e r⟩
  | _, w, _, _, .obj (vs := vs) hc rs, .obj nd nm, h => by
    have hs := h.shape
    cases h.cases with
    | @ref a b k =>
      rw [hc] at k
      generalize e : H2[b]? = c at k
      cases k with
      | @record _ _ bs hx =>
        simp only [Heap.shape, hc, e] at hs
        have hn := (Shape.obj.inj hs).2
        have nd1 : (vs.map (·.1)).Nodup := by rw [rs.same_names]; exact nd
        obtain ⟨g, r⟩ := RepAttrs.of_alike rs nm hn fun n x y mx my => by
          have := hx n
          rw [lookup_of_nodup nd1 mx, lookup_of_nodup (hn ▸ nd1) my] at this
          exact this
        exact ⟨_, .obj e r⟩
theorem RepItems.of_alike {H1 H2 : Heap} : ∀ {vs ws ts f}, RepItems H1 vs ts f → NamedItems ts → vs.length = ws.length →
    (∀ (i : Nat) (x y : HVal), vs[i]? = some x → ws[i]? = some y → Alike H1 x H2 y) → ∃ g, RepItems H2 ws ts g
  | _, [], _, _, .nil, _, _, _ => ⟨_, .nil⟩
  | _, _ :: _, _, _, .nil, _, hl, _ => by cases hl
  | _, [], _, _, .cons _ _, _, hl, _ => by cases hl
  | _, y :: ws, _, _, .cons r rs, .cons nm nms, hl, h => by
    obtain ⟨g, r'⟩ := Rep.of_alike r nm (h 0 _ _ rfl rfl)
    obtain ⟨g', rs'⟩ := RepItems.of_alike rs nms (ws := ws) (Nat.succ.inj hl) fun i x y hx hy => h (i + 1) x y hx hy
    exact ⟨_, .cons r' rs'⟩
theorem RepAttrs.of_alike {H1 H2 : Heap} : ∀ {vs ws ts f}, RepAttrs H1 vs ts f → NamedAttrs ts → vs.map (·.1) = ws.map (·.1) →
    (∀ n x y, (n, x) ∈ vs → (n, y) ∈ ws → Alike H1 x H2 y) → ∃ g, RepAttrs H2 ws ts g
  | _, [], _, _, .nil, _, _, _ => ⟨_, .nil⟩
  | _, _ :: _, _, _, .nil, _, hl, _ => by cases hl
  | _, [], _, _, .cons _ _, _, hl, _ => by cases hl
  | _, (m, y) :: ws, _, _, .cons (n := n) r rs, .cons nm nms, hl, h => by
    rw [List.map_cons, List.map_cons, List.cons.injEq] at hl
    obtain ⟨e, hl⟩ := hl
    have e : n = m := e
    subst e
    obtain ⟨g, r'⟩ := Rep.of_alike r nm (h _ _ _ List.mem_cons_self List.mem_cons_self)
    obtain ⟨g', rs'⟩ := RepAttrs.of_alike rs nms (ws := ws) hl fun n x y hx hy => h n x y (List.mem_cons_of_mem _ hx) (List.mem_cons_of_mem _ hy)
    exact ⟨_, .cons r' rs'⟩
end

/-- With room for the nesting of the objects there is no `RecursionError`. -/
theorem W.toBytes_room {H : Heap} (depth : Nat) : ∀ {v t fp}, Rep H v t fp → t.height ≤ depth → ∀ ver,
    Only PyErr.OfWriting (W.toBytes H depth v ver) := by
  induction depth with
  | zero => intro v t fp r h; have := t.height_pos; omega
  | succ depth ih =>
    intro v t fp r h ver
    unfold W.toBytes
    split
    · exact W.only_error (by simp [PyErr.OfWriting])
    · split
      · next m hm =>
        obtain ⟨p, hp, rfl⟩ := W.method_mem hm
        refine W.method_only (fun e h => h) (fun x ver hb => ?_) ver p hp
        obtain ⟨u, f, r', e⟩ := r.below_of hb
        exact ih r' (by omega) ver
      · exact W.only_error (by simp [PyErr.OfWriting])
    · exact W.only_error (by simp [PyErr.OfWriting])

end Genie
