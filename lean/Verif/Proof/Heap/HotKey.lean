import Verif.Proof.Heap.Records
import Verif.Proof.Heap.Statements
/-! # The hot key post-processing, on objects -/

namespace Genie
open HReader ObjTree

theorem Creatable.object_trains (old : Bool) (c : Creatable) :
    (Creatable.object old c).child (.attr (lit "train_locations")) = some (.list (c.train_locations.map TrainLocation.object)) := rfl

theorem Creatable.object_setTrains (old : Bool) (c : Creatable) (l : List TrainLocation) :
    (Creatable.object old c).setChild (.attr (lit "train_locations")) (.list (l.map TrainLocation.object)) =
      Creatable.object old { c with train_locations := l } := rfl

theorem TrainLocation.object_setHotKey (t : TrainLocation) (key : Int) :
    (TrainLocation.object t).setChild (.attr (lit "hot_key_id")) (.int key) = TrainLocation.object { t with hot_key_id := key } := rfl

theorem EditedTree.setAttr {H N : Heap} {w : HVal} {t fp n old v' t' fpv} (r : Rep H w t fp) (nd : fp.Nodup)
    (ha : t.child (.attr n) = some old) (r' : Rep (H ++ N) v' t' fpv) (nd' : fpv.Nodup) (fr : ∀ a ∈ fpv, H.length ≤ a) (s : ByteHandler) :
    ∃ H', HReader.setAttr w n v' (H ++ N) s = .ok ((), H', s) ∧ EditedTree H H' w fp (t.setChild (.attr n) t') := by
  cases t with
  | obj c ts => exact setAttr_run r nd ha r' nd' fr s
  | _ => cases ha

theorem Rep.not_none {H v c ts fp} (r : Rep H v (.obj c ts) fp) : v ≠ .none := by
  cases r; exact fun h => by cases h

theorem truthy_obj {H v c ts fp} (r : Rep H v (.obj c ts) fp) (s : ByteHandler) : HReader.truthy v H s = .ok (true, H, s) := by
  cases r with
  | obj hc _ => simp [HReader.truthy, HReader.look, W.truthy, W.cell, hc]

theorem truthy_list {H v ts fp} (r : Rep H v (.list ts) fp) (s : ByteHandler) : HReader.truthy v H s = .ok (!ts.isEmpty, H, s) := by
  cases r with
  | list hc ri =>
    have := ri.length
    simp only [HReader.truthy, HReader.look, W.truthy, W.cell, hc]
    cases ri <;> rfl

theorem item_run {H : Heap} {v w : HVal} {i : Nat} (h : H.step v (.item i) = some w) (s : ByteHandler) :
    HReader.item v i H s = .ok (w, H, s) := by
  unfold Heap.step at h
  split at h
  · split at h <;> try cases h
    all_goals simp_all [HReader.item, HReader.look, W.item, W.cell, bind, Except.bind]
  · cases h

theorem storeHotKey_tail {H : Heap} {v : HVal} {old : Bool} {c : Creatable} {t ts fp} (key : Int) (s : ByteHandler)
    (r : Rep H v (Creatable.object old c) fp) (nd : fp.Nodup) (hc : c.train_locations = t :: ts) :
    ∃ H', ((do
      let train_locations ← getAttr v (lit "train_locations")
      let train_location ← HReader.item train_locations 0
      setAttr train_location (lit "hot_key_id") (.int key) : HReader PUnit) H s) = .ok ((), H', s) ∧
      EditedTree H H' v fp (Creatable.object old (Creatable.withHotKey key c)) := by
  obtain ⟨w, h1, hole⟩ := r.child (Creatable.object_trains old c)
  rw [HReader.bind_ok (getAttr_run h1 s)]
  rw [hc] at hole
  obtain ⟨fpw, A, B, rw_, _, _⟩ := hole.hole
  obtain ⟨x, h2, hole2⟩ := rw_.child (st := .item 0) (u := TrainLocation.object t) rfl
  rw [HReader.bind_ok (item_run h2 s)]
  have both := hole.trans (x := x) (y := TrainLocation.object t) (g := fun u' => (ObjTree.list ((t :: ts).map TrainLocation.object)).setChild (.item 0) u') fun fpu ru => by
    obtain ⟨x', h2', hole2'⟩ := ru.child (st := .item 0) (u := TrainLocation.object t) rfl
    rw [h2] at h2'; cases h2'; exact hole2'
  obtain ⟨fpx, _, _, rx, e, _⟩ := both.hole
  have ndx : fpx.Nodup := by
    rw [e] at nd
    exact (List.nodup_append.mp (List.nodup_append.mp nd).1).2.1
  obtain ⟨H', h3, ed⟩ := EditedTree.setAttr (N := []) rx ndx (n := lit "hot_key_id") (old := .int t.hot_key_id) rfl (Rep.int key)
    List.nodup_nil (fun _ h => nomatch h) s
  rw [List.append_nil] at h3
  refine ⟨H', h3, ?_⟩
  have := EditedTree.plug nd both ⟨_, r⟩ (H' := H') (u' := TrainLocation.object { t with hot_key_id := key }) fun fpu ru _ => by
    obtain ⟨_, e⟩ := ru.det rx; subst e; exact ed
  have eq : Creatable.object old (Creatable.withHotKey key c) =
      ((fun u' => (Creatable.object old c).setChild (.attr (lit "train_locations")) u') ∘
        fun u' => (ObjTree.list ((t :: ts).map TrainLocation.object)).setChild (.item 0) u') (TrainLocation.object { t with hot_key_id := key }) := by
    unfold Creatable.withHotKey
    simp only [hc]
    rfl
  rw [eq]; exact this

theorem storeHotKey_run {H : Heap} {v : HVal} {old : Bool} {cre : Option Creatable} {fp} (key : Int) (s : ByteHandler)
    (r : Rep H v (optObj (Creatable.object old) cre) fp) (nd : fp.Nodup) :
    ∃ H', Creatable.storeHotKey v key H s = .ok ((), H', s) ∧
      EditedTree H H' v fp (optObj (Creatable.object old) (cre.map (Creatable.withHotKey key))) := by
  cases cre with
  | none =>
    cases r
    exact ⟨H, rfl, EditedTree.refl .none nd⟩
  | some c =>
    have r : Rep H v (Creatable.object old c) fp := r
    unfold Creatable.storeHotKey
    rw [HReader.bind_ok (truthy_obj r s)]
    rw [if_pos rfl]
    obtain ⟨w, h1, hole⟩ := r.child (Creatable.object_trains old c)
    obtain ⟨fpw, A, B, rw_, _, _⟩ := hole.hole
    rw [HReader.bind_ok (getAttr_run h1 s), HReader.bind_ok (truthy_list rw_ s)]
    cases hc : c.train_locations with
    | cons t ts =>
      rw [if_neg (by simp)]
      exact storeHotKey_tail key s r nd hc
    | nil =>
      rw [if_pos (by simp)]
      let item : Cell := .record (lit "TrainLocation") [(lit "train_time", .int 0), (lit "unit_id", .int (-1)), (lit "button_id", .int 0), (lit "hot_key_id", .int 16000)]
      let d : TrainLocation := { train_time := 0, unit_id := -1, button_id := 0, hot_key_id := 16000 }
      have ri : Rep (H ++ [item, .list [.ref H.length]]) (.ref (H.length + 1)) (.list [TrainLocation.object d]) [H.length + 1, H.length] := by
        refine .list (vs := [.ref H.length]) ?_ ?_
        · rw [List.getElem?_append_right (by omega)]; simp
        · refine .cons (fp := [H.length]) (fps := []) ?_ .nil
          refine .obj (vs := _) (fp := []) (by rw [List.getElem?_append_right (Nat.le_refl _)]; simp; rfl) ?_
          exact .cons (.int _) (.cons (.int _) (.cons (.int _) (.cons (.int _) .nil)))
      obtain ⟨H1, h2, ed⟩ := EditedTree.setAttr r nd (Creatable.object_trains old c) ri (by simp) (by intro a ha; simp at ha; omega) s
      rw [HReader.bind_ok (a := .ref H.length) (H' := H ++ [item]) (s' := s) rfl,
        HReader.bind_ok (a := .ref (H.length + 1)) (H' := H ++ [item, .list [.ref H.length]]) (s' := s) (by unfold alloc; simp),
        HReader.bind_ok h2]
      have e1 : (Creatable.object old c).setChild (.attr (lit "train_locations")) (.list [TrainLocation.object d]) =
          Creatable.object old { c with train_locations := [d] } := rfl
      rw [e1] at ed
      obtain ⟨fp1, r1, nd1, _⟩ := ed.rep
      obtain ⟨H2, h3, ed2⟩ := storeHotKey_tail key s r1 nd1 (t := d) (ts := []) rfl
      refine ⟨H2, h3, ed.trans fun fp' r' _ => ?_⟩
      obtain ⟨_, e⟩ := r'.det r1
      subst e
      have e2 : optObj (Creatable.object old) ((some c).map (Creatable.withHotKey key)) =
          Creatable.object old (Creatable.withHotKey key { c with train_locations := [d] }) := by
        change Creatable.object old (Creatable.withHotKey key c) = _
        unfold Creatable.withHotKey
        simp only [hc]
        rfl
      rw [e2]; exact ed2

theorem Own.edit {P N H' : Heap} {v t fp t' Γ} (o : Own P.length (P ++ N) (⟨v, t, fp⟩ :: Γ)) (ed : EditedTree (P ++ N) H' v fp t') :
    ∃ N' fp', H' = P ++ N' ∧ Own P.length H' (⟨v, t', fp'⟩ :: Γ) := by
  obtain ⟨fp', r', nd', sub⟩ := ed.rep
  have nd := List.nodup_append.mp (show (fp ++ Local.all Γ).Nodup from o.nodup)
  have fr : ∀ a ∈ fp, P.length ≤ a := fun a ha => o.fresh a (List.mem_append_left _ ha)
  have lt : ∀ a ∈ Local.all Γ, a < (P ++ N).length := fun a ha => by
    obtain ⟨x, hx, hm⟩ := List.mem_flatMap.mp ha
    exact (o.rep x (List.mem_cons_of_mem _ hx)).bound a hm
  refine ⟨H'.drop P.length, fp', ?_, ?_, ?_, ?_⟩
  · have : H'.take P.length = P := by
      apply List.ext_getElem?
      intro i
      by_cases hi : i < P.length
      · rw [List.getElem?_take_of_lt hi, ed.edited.same i (by simp; omega) (fun hm => by have := fr i hm; omega),
          List.getElem?_append_left hi]
      · rw [List.getElem?_eq_none (by simp; omega), List.getElem?_eq_none (by omega)]
    calc H' = H'.take P.length ++ H'.drop P.length := (List.take_append_drop _ _).symm
      _ = _ := by rw [this]
  · intro e he
    rcases List.mem_cons.mp he with rfl | he
    · exact r'
    · refine (o.rep e (List.mem_cons_of_mem _ he)).frame fun a ha => ?_
      have ha' : a ∈ Local.all Γ := List.mem_flatMap.mpr ⟨e, he, ha⟩
      exact ed.edited.same a (lt a ha') fun hm => nd.2.2 a hm a ha' rfl
  · change (fp' ++ Local.all Γ).Nodup
    rw [List.nodup_append]
    refine ⟨nd', nd.2.1, fun a ha b hb e => ?_⟩
    subst e
    rcases sub a ha with h | h
    · exact nd.2.2 a h a hb rfl
    · have := lt a hb; omega
  · intro a ha
    rcases List.mem_append.mp (show a ∈ fp' ++ Local.all Γ from ha) with h | h
    · rcases sub a h with h | h
      · exact fr a h
      · simp only [List.length_append] at h; omega
    · exact o.fresh a (List.mem_append_right _ h)

theorem Sim.storeHotKey {P ver Γ Γ' v fp old} {cre : Option Creatable} {key : Int} {hk : PUnit → HReader HVal} {k : Reader α} {tree : α → ObjTree}
    (rm : Remove ⟨v, optObj (Creatable.object old) cre, fp⟩ Γ Γ')
    (h : ∀ fp', Sim P ver (⟨v, optObj (Creatable.object old) (cre.map (Creatable.withHotKey key)), fp'⟩ :: Γ') (hk ()) k tree) :
    Sim P ver Γ (Creatable.storeHotKey v key >>= hk) k tree := by
  intro N s hs o
  have o' := o.remove rm
  have nd := (List.nodup_append.mp (show (fp ++ Local.all Γ').Nodup from o'.nodup)).1
  obtain ⟨H', h1, ed⟩ := storeHotKey_run key s (o'.rep _ List.mem_cons_self) nd
  obtain ⟨N', fp', e, o''⟩ := o'.edit ed
  subst e
  rw [HReader.bind_ok h1]
  exact h fp' N' s hs o''

theorem readHotKey_run {H : Heap} {v : HVal} {old : Bool} {cre : Option Creatable} {fp} (key : Int) (s : ByteHandler)
    (r : Rep H v (optObj (Creatable.object old) cre) fp) :
    Creatable.readHotKey v key H s = .ok (.int (Creatable.firstHotKey cre key), H, s) := by
  cases cre with
  | none => cases r; rfl
  | some c =>
    have r : Rep H v (Creatable.object old c) fp := r
    unfold Creatable.readHotKey
    rw [HReader.bind_ok (truthy_obj r s)]
    rw [if_pos rfl]
    obtain ⟨w, h1, hole⟩ := r.child (Creatable.object_trains old c)
    obtain ⟨fpw, A, B, rw_, _, _⟩ := hole.hole
    have e1 : ((do
        let train_locations ← getAttr v (lit "train_locations")
        HReader.truthy train_locations : HReader Bool) H s) = .ok (!(c.train_locations.map TrainLocation.object).isEmpty, H, s) := by
      rw [HReader.bind_ok (getAttr_run h1 s), truthy_list rw_ s]
    rw [HReader.bind_ok e1]
    unfold Creatable.firstHotKey
    cases hc : c.train_locations with
    | nil => rw [if_neg (by simp)]; simp only [hc]; rfl
    | cons t ts =>
      rw [if_pos (by simp), HReader.bind_ok (getAttr_run h1 s)]
      simp only [hc]
      rw [hc] at rw_
      obtain ⟨x, h2, hole2⟩ := rw_.child (st := .item 0) (u := TrainLocation.object t) rfl
      obtain ⟨fpx, _, _, rx, _, _⟩ := hole2.hole
      obtain ⟨y, h3, hole3⟩ := rx.child (st := .attr (lit "hot_key_id")) (u := .int t.hot_key_id) rfl
      obtain ⟨fpy, _, _, ry, _, _⟩ := hole3.hole
      rw [HReader.bind_ok (item_run h2 s), getAttr_run h3 s]
      cases ry
      rfl

theorem Sim.readHotKey {P ver Γ Γ' v fp old} {cre : Option Creatable} {key : Int} {hk : HVal → HReader HVal} {k : Reader α} {tree : α → ObjTree}
    (rm : Remove ⟨v, optObj (Creatable.object old) cre, fp⟩ Γ Γ')
    (h : Sim P ver Γ (hk (.int (Creatable.firstHotKey cre key))) k tree) :
    Sim P ver Γ (Creatable.readHotKey v key >>= hk) k tree := by
  intro N s hs o
  rw [HReader.bind_ok (readHotKey_run key s ((o.remove rm).rep _ List.mem_cons_self))]
  exact h N s hs o

end Genie
