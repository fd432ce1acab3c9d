import Verif.Spec.Objects
/-! # Basic facts about `Rep` -/

namespace Genie

mutual
theorem Rep.frame {H H' : Heap} : ∀ {v t fp}, Rep H v t fp → (∀ a ∈ fp, H'[a]? = H[a]?) → Rep H' v t fp
  | _, _, _, .none, _ => .none
  | _, _, _, .int i, _ => .int i
  | _, _, _, .float i, _ => .float i
  | _, _, _, .str i, _ => .str i
  | _, _, _, .list h r, e => .list ((e _ (List.mem_cons_self)).trans h) (r.frame fun a m => e a (List.mem_cons_of_mem _ m))
  | _, _, _, .tuple h r, e => .tuple ((e _ (List.mem_cons_self)).trans h) (r.frame fun a m => e a (List.mem_cons_of_mem _ m))
  | _, _, _, .obj h r, e => .obj ((e _ (List.mem_cons_self)).trans h) (r.frame fun a m => e a (List.mem_cons_of_mem _ m))
theorem RepItems.frame {H H' : Heap} : ∀ {v t fp}, RepItems H v t fp → (∀ a ∈ fp, H'[a]? = H[a]?) → RepItems H' v t fp
  | _, _, _, .nil, _ => .nil
  | _, _, _, .cons r rs, e => .cons (r.frame fun a m => e a (List.mem_append_left _ m)) (rs.frame fun a m => e a (List.mem_append_right _ m))
theorem RepAttrs.frame {H H' : Heap} : ∀ {v t fp}, RepAttrs H v t fp → (∀ a ∈ fp, H'[a]? = H[a]?) → RepAttrs H' v t fp
  | _, _, _, .nil, _ => .nil
  | _, _, _, .cons r rs, e => .cons (r.frame fun a m => e a (List.mem_append_left _ m)) (rs.frame fun a m => e a (List.mem_append_right _ m))
end

theorem lt_of_cell {H : Heap} {a : Nat} {c : Cell} (h : H[a]? = some c) : a < H.length := by
  rcases Nat.lt_or_ge a H.length with h' | h'
  · exact h'
  · rw [List.getElem?_eq_none h'] at h; cases h

mutual
theorem Rep.bound {H : Heap} : ∀ {v t fp}, Rep H v t fp → ∀ a ∈ fp, a < H.length
  | _, _, _, .none, _, m => nomatch m
  | _, _, _, .int i, _, m => nomatch m
  | _, _, _, .float i, _, m => nomatch m
  | _, _, _, .str i, _, m => nomatch m
  | _, _, _, .list h r, a, m => (List.mem_cons.mp m).elim (fun e => e ▸ lt_of_cell h) (r.bound a)
  | _, _, _, .tuple h r, a, m => (List.mem_cons.mp m).elim (fun e => e ▸ lt_of_cell h) (r.bound a)
  | _, _, _, .obj h r, a, m => (List.mem_cons.mp m).elim (fun e => e ▸ lt_of_cell h) (r.bound a)
theorem RepItems.bound {H : Heap} : ∀ {v t fp}, RepItems H v t fp → ∀ a ∈ fp, a < H.length
  | _, _, _, .nil, _, m => nomatch m
  | _, _, _, .cons r rs, a, m => (List.mem_append.mp m).elim (r.bound a) (rs.bound a)
theorem RepAttrs.bound {H : Heap} : ∀ {v t fp}, RepAttrs H v t fp → ∀ a ∈ fp, a < H.length
  | _, _, _, .nil, _, m => nomatch m
  | _, _, _, .cons r rs, a, m => (List.mem_append.mp m).elim (r.bound a) (rs.bound a)
end

mutual
/-- Unfolding is a function of the heap. -/
theorem Rep.det {H : Heap} : ∀ {v t fp t' fp'}, Rep H v t fp → Rep H v t' fp' → t = t' ∧ fp = fp'
  | _, _, _, _, _, .none, .none => ⟨rfl, rfl⟩
  | _, _, _, _, _, .int _, .int _ => ⟨rfl, rfl⟩
  | _, _, _, _, _, .float _, .float _ => ⟨rfl, rfl⟩
  | _, _, _, _, _, .str _, .str _ => ⟨rfl, rfl⟩
  | _, _, _, _, _, .list h r, .list h' r' => by
    have e := h.symm.trans h'; cases e
    obtain ⟨a, b⟩ := r.det r'; subst a b; exact ⟨rfl, rfl⟩
  | _, _, _, _, _, .tuple h r, .tuple h' r' => by
    have e := h.symm.trans h'; cases e
    obtain ⟨a, b⟩ := r.det r'; subst a b; exact ⟨rfl, rfl⟩
  | _, _, _, _, _, .obj h r, .obj h' r' => by
    have e := h.symm.trans h'; cases e
    obtain ⟨a, b⟩ := r.det r'; subst a b; exact ⟨rfl, rfl⟩
  | _, _, _, _, _, .list h _, .tuple h' _ => by have e := h.symm.trans h'; cases e
  | _, _, _, _, _, .list h _, .obj h' _ => by have e := h.symm.trans h'; cases e
  | _, _, _, _, _, .tuple h _, .list h' _ => by have e := h.symm.trans h'; cases e
  | _, _, _, _, _, .tuple h _, .obj h' _ => by have e := h.symm.trans h'; cases e
  | _, _, _, _, _, .obj h _, .list h' _ => by have e := h.symm.trans h'; cases e
  | _, _, _, _, _, .obj h _, .tuple h' _ => by have e := h.symm.trans h'; cases e
theorem RepItems.det {H : Heap} : ∀ {v t fp t' fp'}, RepItems H v t fp → RepItems H v t' fp' → t = t' ∧ fp = fp'
  | _, _, _, _, _, .nil, .nil => ⟨rfl, rfl⟩
  | _, _, _, _, _, .cons r rs, .cons r' rs' => by
    obtain ⟨a, b⟩ := r.det r'; subst a b
    obtain ⟨a, b⟩ := rs.det rs'; subst a b; exact ⟨rfl, rfl⟩
theorem RepAttrs.det {H : Heap} : ∀ {v t fp t' fp'}, RepAttrs H v t fp → RepAttrs H v t' fp' → t = t' ∧ fp = fp'
  | _, _, _, _, _, .nil, .nil => ⟨rfl, rfl⟩
  | _, _, _, _, _, .cons r rs, .cons r' rs' => by
    obtain ⟨a, b⟩ := r.det r'; subst a b
    obtain ⟨a, b⟩ := rs.det rs'; subst a b; exact ⟨rfl, rfl⟩
end

/-- New objects do not change what old values unfold to. -/
theorem Rep.extend {H : Heap} {v t fp} (r : Rep H v t fp) (N : Heap) : Rep (H ++ N) v t fp :=
  r.frame fun a m => List.getElem?_append_left (r.bound a m)

theorem RepItems.extend {H : Heap} {v t fp} (r : RepItems H v t fp) (N : Heap) : RepItems (H ++ N) v t fp :=
  r.frame fun a m => List.getElem?_append_left (r.bound a m)

theorem RepAttrs.extend {H : Heap} {v t fp} (r : RepAttrs H v t fp) (N : Heap) : RepAttrs (H ++ N) v t fp :=
  r.frame fun a m => List.getElem?_append_left (r.bound a m)

/-- Changing an object that is not met does not change what a value unfolds to. -/
theorem Rep.set {H : Heap} {v t fp} (r : Rep H v t fp) {a : Nat} (h : a ∉ fp) (c : Cell) : Rep (H.set a c) v t fp :=
  r.frame fun b m => List.getElem?_set_ne (fun (e : a = b) => h (e ▸ m))

theorem RepItems.set {H : Heap} {v t fp} (r : RepItems H v t fp) {a : Nat} (h : a ∉ fp) (c : Cell) : RepItems (H.set a c) v t fp :=
  r.frame fun b m => List.getElem?_set_ne (fun (e : a = b) => h (e ▸ m))

theorem RepAttrs.set {H : Heap} {v t fp} (r : RepAttrs H v t fp) {a : Nat} (h : a ∉ fp) (c : Cell) : RepAttrs (H.set a c) v t fp :=
  r.frame fun b m => List.getElem?_set_ne (fun (e : a = b) => h (e ▸ m))

theorem RepItems.snoc {H : Heap} : ∀ {vs ts fps v t fp}, RepItems H vs ts fps → Rep H v t fp → RepItems H (vs ++ [v]) (ts ++ [t]) (fps ++ fp)
  | _, _, _, _, _, fp, .nil, r => by
    have := RepItems.cons r .nil
    simpa using this
  | _, _, _, _, _, _, .cons r rs, r' => by
    have := RepItems.cons r (rs.snoc r')
    simpa [List.append_assoc] using this

end Genie
