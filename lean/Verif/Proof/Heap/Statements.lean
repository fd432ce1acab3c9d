import Verif.Proof.Heap.Edit
/-! # What the statements of a program do to a tree of objects -/

namespace Genie
open HReader ObjTree

theorem HReader.bind_eq (r : HReader α) (f : α → HReader β) (H : Heap) (s : ByteHandler) :
    (r >>= f) H s = (match r H s with | .error e => .error e | .ok (a, H', s') => f a H' s') := rfl

theorem HReader.bind_ok {r : HReader α} {f : α → HReader β} {H : Heap} {s : ByteHandler} {a H' s'} (h : r H s = .ok (a, H', s')) :
    (r >>= f) H s = f a H' s' := by rw [HReader.bind_eq, h]

theorem HReader.bind_error {r : HReader α} {f : α → HReader β} {H : Heap} {s : ByteHandler} {e} (h : r H s = .error e) :
    (r >>= f) H s = .error e := by rw [HReader.bind_eq, h]

theorem cell_run {H : Heap} {a : Nat} {c : Cell} (h : H[a]? = some c) (e : PyErr) (s : ByteHandler) :
    cell (.ref a) e H s = .ok (c, H, s) := by
  unfold cell; simp only [h]

theorem getAttr_run {H : Heap} {v w : HVal} {n : PyStr} (h : H.step v (.attr n) = some w) (s : ByteHandler) :
    getAttr v n H s = .ok (w, H, s) := by
  unfold Heap.step at h
  split at h
  · split at h <;> try cases h
    next a c vs hc e =>
      cases e
      unfold getAttr
      rw [HReader.bind_ok (cell_run hc _ s)]
      simp only [h]; rfl
    next => injections
    next => injections
  · cases h

theorem getItem_run {H : Heap} {v w : HVal} {i : Nat} (h : H.step v (.item i) = some w) (s : ByteHandler) :
    HReader.getItem v i H s = .ok (w, H, s) := by
  unfold Heap.step at h
  split at h
  · split at h <;> try cases h
    next => injections
    next hc e =>
      cases e
      unfold HReader.getItem
      rw [HReader.bind_ok (cell_run hc _ s)]
      simp only [h]; rfl
    next hc e =>
      cases e
      unfold HReader.getItem
      rw [HReader.bind_ok (cell_run hc _ s)]
      simp only [h]; rfl
  · cases h

theorem Rep.list_inv {H v ts fp} (r : Rep H v (.list ts) fp) :
    ∃ a vs fps, v = .ref a ∧ fp = a :: fps ∧ H[a]? = some (.list vs) ∧ RepItems H vs ts fps := by
  cases r with
  | list h rs => exact ⟨_, _, _, rfl, rfl, h, rs⟩

theorem Rep.tuple_inv {H v ts fp} (r : Rep H v (.tuple ts) fp) :
    ∃ a vs fps, v = .ref a ∧ fp = a :: fps ∧ H[a]? = some (.tuple vs) ∧ RepItems H vs ts fps := by
  cases r with
  | tuple h rs => exact ⟨_, _, _, rfl, rfl, h, rs⟩

theorem Rep.obj_inv {H v c ts fp} (r : Rep H v (.obj c ts) fp) :
    ∃ a vs fps, v = .ref a ∧ fp = a :: fps ∧ H[a]? = some (.record c vs) ∧ RepAttrs H vs ts fps := by
  cases r with
  | obj h rs => exact ⟨_, _, _, rfl, rfl, h, rs⟩

theorem RepItems.length {H : Heap} : ∀ {vs ts fps}, RepItems H vs ts fps → vs.length = ts.length
  | _, _, _, .nil => rfl
  | _, _, _, .cons _ rs => by simp [rs.length]

theorem len_run {H v ts fp} (r : Rep H v (.list ts) fp) (s : ByteHandler) : len v H s = .ok (ts.length, H, s) := by
  obtain ⟨a, vs, fps, rfl, rfl, hc, rs⟩ := r.list_inv
  unfold len
  rw [HReader.bind_ok (cell_run hc _ s)]
  simp only [rs.length]; rfl

theorem Edited.set {H N : Heap} {a : Nat} {fp : List Nat} (h : a ∈ fp) (c : Cell) : Edited H ((H ++ N).set a c) fp := by
  refine ⟨by simp, fun b hb hf => ?_⟩
  rw [List.getElem?_set_ne (fun (e : a = b) => hf (e ▸ h)), List.getElem?_append_left hb]

theorem getElem?_set_self' {H : Heap} {a : Nat} (h : a < H.length) (c : Cell) : (H.set a c)[a]? = some c := by
  rw [List.getElem?_set_self h]

/-- `o.name = v`, where `v` is a scalar or an object created since `H`. -/
theorem setAttr_run {H N : Heap} {w : HVal} {c : PyStr} {ts fp n old v' t' fpv} (r : Rep H w (.obj c ts) fp) (nd : fp.Nodup)
    (ha : attrOf n ts = some old) (r' : Rep (H ++ N) v' t' fpv) (nd' : fpv.Nodup) (fr : ∀ a ∈ fpv, H.length ≤ a) (s : ByteHandler) :
    ∃ H', setAttr w n v' (H ++ N) s = .ok ((), H', s) ∧ EditedTree H H' w fp (.obj c (setAttrOf n t' ts)) := by
  obtain ⟨a, vs, fps, rfl, rfl, hc, rs⟩ := r.obj_inv
  obtain ⟨u, fpu, A, B, h1, h2, h3, h4⟩ := rs.hole ha
  have ha' : a < H.length := lt_of_cell hc
  have hc' : (H ++ N)[a]? = some (.record c vs) := by rw [List.getElem?_append_left ha']; exact hc
  refine ⟨(H ++ N).set a (.record c (assign n v' vs)), ?_, Edited.set List.mem_cons_self _, a :: (A ++ fpv ++ B), ?_, ?_, ?_⟩
  · unfold setAttr
    rw [HReader.bind_ok (cell_run hc' _ s)]
    simp only [h1]; rfl
  · have nda := (List.nodup_cons.mp nd)
    refine .obj (getElem?_set_self' (by simp; omega) _) (h4 _ v' t' fpv ?_ ?_)
    · exact r'.set (fun hm => by have := fr a hm; omega) _
    · intro x hx
      have hx' : x ∈ fps := by rw [h3]; rcases hx with h | h <;> simp [h]
      rw [List.getElem?_set_ne (fun (e : a = x) => nda.1 (e ▸ hx')), List.getElem?_append_left (rs.bound x hx')]
  · subst h3
    have nda := List.nodup_cons.mp nd
    have nd1 := List.nodup_append.mp nda.2
    have nd2 := List.nodup_append.mp nd1.1
    have lt := rs.bound
    rw [List.nodup_cons, List.nodup_append, List.nodup_append]
    refine ⟨fun hm => ?_, ⟨nd2.1, nd', fun x hx y hy e => ?_⟩, nd1.2.1, fun x hx y hy e => ?_⟩
    · rcases List.mem_append.mp hm with hm | hm
      · rcases List.mem_append.mp hm with hm | hm
        · exact nda.1 (by simp [hm])
        · have := fr a hm; omega
      · exact nda.1 (by simp [hm])
    · subst e
      have := fr x hy
      have := lt x (by simp [hx])
      omega
    · subst e
      rcases List.mem_append.mp hx with hx | hx
      · exact nd1.2.2 x (List.mem_append_left _ hx) x hy rfl
      · have := fr x hx
        have := lt x (by simp [hy])
        omega
  · intro x hx
    subst h3
    rcases List.mem_cons.mp hx with rfl | hx
    · exact .inl List.mem_cons_self
    · rcases List.mem_append.mp hx with hx | hx
      · rcases List.mem_append.mp hx with hx | hx
        · exact .inl (by simp [hx])
        · exact .inr (fr x hx)
      · exact .inl (by simp [hx])

/-- One cell is changed: part `G` of what it refers to is replaced by `fpv`, which is new. -/
theorem EditedTree.replace {H N : Heap} {a : Nat} {c : Cell} {fps A G B fpv : List Nat} {t' : ObjTree} (nd : (a :: fps).Nodup)
    (lt : ∀ x ∈ a :: fps, x < H.length) (h3 : fps = A ++ G ++ B) (nd' : fpv.Nodup) (fr : ∀ x ∈ fpv, H.length ≤ x)
    (rep : Rep ((H ++ N).set a c) (.ref a) t' (a :: (A ++ fpv ++ B))) : EditedTree H ((H ++ N).set a c) (.ref a) (a :: fps) t' := by
  refine ⟨Edited.set List.mem_cons_self _, a :: (A ++ fpv ++ B), rep, ?_, ?_⟩
  · subst h3
    have nda := List.nodup_cons.mp nd
    have nd1 := List.nodup_append.mp nda.2
    have nd2 := List.nodup_append.mp nd1.1
    rw [List.nodup_cons, List.nodup_append, List.nodup_append]
    refine ⟨fun hm => ?_, ⟨nd2.1, nd', fun x hx y hy e => ?_⟩, nd1.2.1, fun x hx y hy e => ?_⟩
    · rcases List.mem_append.mp hm with hm | hm
      · rcases List.mem_append.mp hm with hm | hm
        · exact nda.1 (by simp [hm])
        · have := fr a hm
          have := lt a List.mem_cons_self
          omega
      · exact nda.1 (by simp [hm])
    · subst e
      have := fr x hy
      have := lt x (by simp [hx])
      omega
    · subst e
      rcases List.mem_append.mp hx with hx | hx
      · exact nd1.2.2 x (List.mem_append_left _ hx) x hy rfl
      · have := fr x hx
        have := lt x (by simp [hy])
        omega
  · intro x hx
    subst h3
    rcases List.mem_cons.mp hx with rfl | hx
    · exact .inl List.mem_cons_self
    · rcases List.mem_append.mp hx with hx | hx
      · rcases List.mem_append.mp hx with hx | hx
        · exact .inl (by simp [hx])
        · exact .inr (fr x hx)
      · exact .inl (by simp [hx])

theorem RepAttrs.snoc {H : Heap} : ∀ {vs ts fps v t fp} {n : PyStr}, RepAttrs H vs ts fps → Rep H v t fp →
    RepAttrs H (vs ++ [(n, v)]) (ts ++ [(n, t)]) (fps ++ fp)
  | _, _, _, _, _, _, _, .nil, r => by simpa using RepAttrs.cons r .nil
  | _, _, _, _, _, _, _, .cons r' rs, r => by
    rw [List.append_assoc]
    exact .cons r' (rs.snoc r)

theorem RepItems.append {H : Heap} : ∀ {vs ts fps vs' ts' fps'}, RepItems H vs ts fps → RepItems H vs' ts' fps' →
    RepItems H (vs ++ vs') (ts ++ ts') (fps ++ fps')
  | _, _, _, _, _, _, .nil, r => by simpa using r
  | _, _, _, _, _, _, .cons r' rs, r => by
    rw [List.append_assoc]
    exact .cons r' (rs.append r)

theorem RepItems.split {H : Heap} : ∀ {vs ts fps}, RepItems H vs ts fps → ∀ i : Nat, ∃ A B, fps = A ++ B ∧
    RepItems H (vs.take i) (ts.take i) A ∧ RepItems H (vs.drop i) (ts.drop i) B
  | _, _, fps, r, 0 => ⟨[], fps, rfl, .nil, r⟩
  | _, _, _, .nil, _ + 1 => ⟨[], [], rfl, .nil, .nil⟩
  | _, _, _, .cons r rs, i + 1 => by
    obtain ⟨A, B, rfl, h1, h2⟩ := rs.split i
    exact ⟨_ ++ A, B, by rw [List.append_assoc], .cons r h1, h2⟩

/-- What is between two positions of a list is replaced. -/
theorem RepItems.splice {H : Heap} {vs ts fps} (rs : RepItems H vs ts fps) {i k : Nat} (h : i ≤ k) : ∃ A G B, fps = A ++ G ++ B ∧
    ∀ H' us xs f, RepItems H' us xs f → (∀ x, x ∈ A ∨ x ∈ B → H'[x]? = H[x]?) →
      RepItems H' (vs.take i ++ us ++ vs.drop k) (ts.take i ++ xs ++ ts.drop k) (A ++ f ++ B) := by
  obtain ⟨A, R, e1, h1, h2⟩ := rs.split i
  obtain ⟨G, B, e2, -, h4⟩ := h2.split (k - i)
  rw [List.drop_drop, List.drop_drop, Nat.add_sub_cancel' h] at h4
  refine ⟨A, G, B, by rw [e1, e2, List.append_assoc], fun H' us xs f r ag => ?_⟩
  exact ((h1.frame fun x hx => ag x (.inl hx)).append r).append (h4.frame fun x hx => ag x (.inr hx))

/-- `o.name = v` for an attribute that is not there, where `v` is a scalar or an object created since `H`. -/
theorem newAttr_run {H N : Heap} {w : HVal} {c : PyStr} {ts fp n v' t' fpv} (r : Rep H w (.obj c ts) fp) (nd : fp.Nodup)
    (r' : Rep (H ++ N) v' t' fpv) (nd' : fpv.Nodup) (fr : ∀ a ∈ fpv, H.length ≤ a) :
    ∃ a vs, w = .ref a ∧ H[a]? = some (.record c vs) ∧
      EditedTree H ((H ++ N).set a (.record c (vs ++ [(n, v')]))) w fp (.obj c (ts ++ [(n, t')])) := by
  obtain ⟨a, vs, fps, rfl, rfl, hc, rs⟩ := r.obj_inv
  have ha' : a < H.length := lt_of_cell hc
  have nda := List.nodup_cons.mp nd
  refine ⟨a, vs, rfl, hc, EditedTree.replace nd (r.bound) (A := fps) (G := []) (B := []) (by simp) nd' fr ?_⟩
  refine .obj (getElem?_set_self' (by simp; omega) _) ?_
  rw [List.append_nil]
  exact ((rs.extend N).set nda.1 _).snoc (r'.set (fun hm => by have := fr a hm; omega) _)

/-- What is between two positions of a list is replaced by nothing, or by a value that is a scalar or an object created since `H`. -/
theorem splice_run {H N : Heap} {w : HVal} {ts fp us xs f} {i k : Nat} (r : Rep H w (.list ts) fp) (nd : fp.Nodup) (h : i ≤ k)
    (r' : RepItems (H ++ N) us xs f) (nd' : f.Nodup) (fr : ∀ a ∈ f, H.length ≤ a) :
    ∃ a vs, w = .ref a ∧ H[a]? = some (.list vs) ∧ vs.length = ts.length ∧
      EditedTree H ((H ++ N).set a (.list (vs.take i ++ us ++ vs.drop k))) w fp (.list (ts.take i ++ xs ++ ts.drop k)) := by
  obtain ⟨a, vs, fps, rfl, rfl, hc, rs⟩ := r.list_inv
  have ha' : a < H.length := lt_of_cell hc
  have nda := List.nodup_cons.mp nd
  obtain ⟨A, G, B, e, plug⟩ := rs.splice h
  refine ⟨a, vs, rfl, hc, rs.length, EditedTree.replace nd (r.bound) e nd' fr ?_⟩
  refine .list (getElem?_set_self' (by simp; omega) _) (plug _ us xs f (r'.set (fun hm => by have := fr a hm; omega) _) fun x hx => ?_)
  have hx' : x ∈ fps := by rw [e]; rcases hx with h | h <;> simp [h]
  rw [List.getElem?_set_ne (fun (e : a = x) => nda.1 (e ▸ hx')), List.getElem?_append_left (rs.bound x hx')]

/-- `o[i] = v`, where `v` is a scalar or an object created since `H`. -/
theorem setItem_run {H N : Heap} {w : HVal} {ts fp i old v' t' fpv} (r : Rep H w (.list ts) fp) (nd : fp.Nodup)
    (ha : ts[i]? = some old) (r' : Rep (H ++ N) v' t' fpv) (nd' : fpv.Nodup) (fr : ∀ a ∈ fpv, H.length ≤ a) (s : ByteHandler) :
    ∃ H', setItem w i v' (H ++ N) s = .ok ((), H', s) ∧ EditedTree H H' w fp (.list (ts.set i t')) := by
  obtain ⟨a, vs, fps, rfl, rfl, hc, rs⟩ := r.list_inv
  obtain ⟨u, fpu, A, B, h1, h2, h3, h4⟩ := rs.hole ha
  have ha' : a < H.length := lt_of_cell hc
  have hc' : (H ++ N)[a]? = some (.list vs) := by rw [List.getElem?_append_left ha']; exact hc
  have hi : i < vs.length := by
    rcases Nat.lt_or_ge i vs.length with h | h
    · exact h
    · rw [List.getElem?_eq_none h] at h1; cases h1
  refine ⟨(H ++ N).set a (.list (vs.set i v')), ?_, Edited.set List.mem_cons_self _, a :: (A ++ fpv ++ B), ?_, ?_, ?_⟩
  · unfold setItem
    rw [HReader.bind_ok (cell_run hc' _ s)]
    simp only [if_pos hi]; rfl
  · have nda := (List.nodup_cons.mp nd)
    refine .list (getElem?_set_self' (by simp; omega) _) (h4 _ v' t' fpv ?_ ?_)
    · exact r'.set (fun hm => by have := fr a hm; omega) _
    · intro x hx
      have hx' : x ∈ fps := by rw [h3]; rcases hx with h | h <;> simp [h]
      rw [List.getElem?_set_ne (fun (e : a = x) => nda.1 (e ▸ hx')), List.getElem?_append_left (rs.bound x hx')]
  · subst h3
    have nda := List.nodup_cons.mp nd
    have nd1 := List.nodup_append.mp nda.2
    have nd2 := List.nodup_append.mp nd1.1
    have lt := rs.bound
    rw [List.nodup_cons, List.nodup_append, List.nodup_append]
    refine ⟨fun hm => ?_, ⟨nd2.1, nd', fun x hx y hy e => ?_⟩, nd1.2.1, fun x hx y hy e => ?_⟩
    · rcases List.mem_append.mp hm with hm | hm
      · rcases List.mem_append.mp hm with hm | hm
        · exact nda.1 (by simp [hm])
        · have := fr a hm; omega
      · exact nda.1 (by simp [hm])
    · subst e
      have := fr x hy
      have := lt x (by simp [hx])
      omega
    · subst e
      rcases List.mem_append.mp hx with hx | hx
      · exact nd1.2.2 x (List.mem_append_left _ hx) x hy rfl
      · have := fr x hx
        have := lt x (by simp [hy])
        omega
  · intro x hx
    subst h3
    rcases List.mem_cons.mp hx with rfl | hx
    · exact .inl List.mem_cons_self
    · rcases List.mem_append.mp hx with hx | hx
      · rcases List.mem_append.mp hx with hx | hx
        · exact .inl (by simp [hx])
        · exact .inr (fr x hx)
      · exact .inl (by simp [hx])

/-- `o.append(v)`, where `v` is a scalar or an object created since `H`. -/
theorem append_run {H N : Heap} {w : HVal} {ts fp v' t' fpv} (r : Rep H w (.list ts) fp) (nd : fp.Nodup)
    (r' : Rep (H ++ N) v' t' fpv) (nd' : fpv.Nodup) (fr : ∀ a ∈ fpv, H.length ≤ a) (s : ByteHandler) :
    ∃ H', append w v' (H ++ N) s = .ok ((), H', s) ∧ EditedTree H H' w fp (.list (ts ++ [t'])) := by
  obtain ⟨a, vs, fps, rfl, rfl, hc, rs⟩ := r.list_inv
  have ha' : a < H.length := lt_of_cell hc
  have hc' : (H ++ N)[a]? = some (.list vs) := by rw [List.getElem?_append_left ha']; exact hc
  have nda := (List.nodup_cons.mp nd)
  refine ⟨(H ++ N).set a (.list (vs ++ [v'])), ?_, Edited.set List.mem_cons_self _, a :: (fps ++ fpv), ?_, ?_, ?_⟩
  · unfold append
    rw [HReader.bind_ok (cell_run hc' _ s)]
    rfl
  · refine .list (getElem?_set_self' (by simp; omega) _) (RepItems.snoc ?_ ?_)
    · exact (rs.extend N).set nda.1 _
    · exact r'.set (fun hm => by have := fr a hm; omega) _
  · rw [List.nodup_cons, List.nodup_append]
    refine ⟨fun hm => ?_, nda.2, nd', fun x hx y hy e => ?_⟩
    · rcases List.mem_append.mp hm with hm | hm
      · exact nda.1 hm
      · have := fr a hm; omega
    · subst e
      have := fr x hy
      have := rs.bound x hx
      omega
  · intro x hx
    rcases List.mem_cons.mp hx with rfl | hx
    · exact .inl List.mem_cons_self
    · rcases List.mem_append.mp hx with hx | hx
      · exact .inl (List.mem_cons_of_mem _ hx)
      · exact .inr (fr x hx)

theorem RepItems.dropLast {H : Heap} : ∀ {vs ts fps}, RepItems H vs ts fps → ∃ fps', RepItems H vs.dropLast ts.dropLast fps' ∧ fps'.Sublist fps
  | _, _, _, .nil => ⟨[], .nil, List.Sublist.refl _⟩
  | _, _, _, .cons r .nil => ⟨[], .nil, List.nil_sublist _⟩
  | _, _, _, .cons r (.cons r' rs) => by
    obtain ⟨fps', h, h'⟩ := (RepItems.cons r' rs).dropLast
    exact ⟨_, .cons r h, List.Sublist.append (List.Sublist.refl _) h'⟩

/-- `o.pop()`. -/
theorem pop_run {H : Heap} {w : HVal} {ts fp} (r : Rep H w (.list ts) fp) (nd : fp.Nodup) (ht : ts ≠ []) (s : ByteHandler) :
    ∃ H', pop w H s = .ok ((), H', s) ∧ EditedTree H H' w fp (.list ts.dropLast) := by
  obtain ⟨a, vs, fps, rfl, rfl, hc, rs⟩ := r.list_inv
  have ha' : a < H.length := lt_of_cell hc
  have nda := (List.nodup_cons.mp nd)
  obtain ⟨fps', rs', sub⟩ := rs.dropLast
  have hv : vs ≠ [] := by
    intro e; apply ht
    have := rs.length
    rw [e] at this
    exact List.length_eq_zero_iff.mp this.symm
  refine ⟨H.set a (.list vs.dropLast), ?_, ?_, a :: fps', ?_, ?_, ?_⟩
  · unfold pop
    rw [HReader.bind_ok (cell_run hc _ s)]
    simp only [if_neg hv]; rfl
  · have := Edited.set (H := H) (N := []) (a := a) (fp := a :: fps) List.mem_cons_self (.list vs.dropLast)
    simpa using this
  · exact .list (getElem?_set_self' ha' _) (rs'.set (fun hm => nda.1 (sub.mem hm)) _)
  · rw [List.nodup_cons]
    exact ⟨fun hm => nda.1 (sub.mem hm), nda.2.sublist sub⟩
  · intro x hx
    rcases List.mem_cons.mp hx with rfl | hx
    · exact .inl List.mem_cons_self
    · exact .inl (List.mem_cons_of_mem _ (sub.mem hx))

theorem pop_empty {H : Heap} {w : HVal} {fp} (r : Rep H w (.list []) fp) (s : ByteHandler) : pop w H s = .error .indexError := by
  obtain ⟨a, vs, fps, rfl, rfl, hc, rs⟩ := r.list_inv
  cases rs
  unfold pop
  rw [HReader.bind_ok (cell_run hc _ s)]
  rfl

end Genie
