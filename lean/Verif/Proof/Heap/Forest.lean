import Verif.Proof.Heap.Once
/-! # One operation of a script, in memory and on values -/

namespace Genie
open HReader ObjTree

/-! ## taking trees out of the forest -/

/-- A list with some places emptied. -/
def blank {α : Type} (d : α) (l : List α) (gone : List Nat) : List α := gone.foldl (fun l r => l.set r d) l

theorem blank_length {α : Type} (d : α) : ∀ (gone : List Nat) (l : List α), (blank d l gone).length = l.length
  | [], _ => rfl
  | r :: gone, l => by
    show (blank d (l.set r d) gone).length = _
    rw [blank_length d gone, List.length_set]

theorem blank_out {α : Type} (d : α) : ∀ (gone : List Nat) (l : List α) {i : Nat}, i ∉ gone → (blank d l gone)[i]? = l[i]?
  | [], _, _, _ => rfl
  | r :: gone, l, i, h => by
    show (blank d (l.set r d) gone)[i]? = _
    rw [blank_out d gone _ fun hm => h (List.mem_cons_of_mem _ hm), List.getElem?_set_ne fun (e : r = i) => h (e ▸ List.mem_cons_self)]

theorem blank_set {α : Type} (d : α) : ∀ (gone : List Nat) (l : List α) {i : Nat} (x : α), i ∉ gone → blank d (l.set i x) gone = (blank d l gone).set i x
  | [], _, _, _, _ => rfl
  | r :: gone, l, i, x, h => by
    show blank d ((l.set i x).set r d) gone = (blank d (l.set r d) gone).set i x
    rw [List.set_comm _ _ fun (e : i = r) => h (e ▸ List.mem_cons_self), blank_set d gone _ x fun hm => h (List.mem_cons_of_mem _ hm)]

/-- What is handed to an operation, in memory and as a value: a tree of its own, or something that cannot change. -/
inductive Handed (H : Heap) (roots : List HVal) (trees : List ObjTree) (fp : List Nat) : List HVal → List (ObjTree × Option Nat) → Prop
  | nil : Handed H roots trees fp [] []
  | tree {x : HVal} {u : ObjTree} {r : Nat} {xs us} : roots[r]? = some x → trees[r]? = some u → Handed H roots trees fp xs us →
      Handed H roots trees fp (x :: xs) ((u, some r) :: us)
  | value {x : HVal} {u : ObjTree} {f : List Nat} {xs us} : Rep H x u f → (∀ b ∈ f, ¬ H.Mutable b) → (∀ b ∈ f, b ∈ fp) →
      Handed H roots trees fp xs us → Handed H roots trees fp (x :: xs) ((u, Option.none) :: us)

theorem Handed.length {H roots trees fp xs us} (h : Handed H roots trees fp xs us) : xs.length = us.length := by
  induction h with
  | nil => rfl
  | tree _ _ _ ih => simp [ih]
  | value _ _ _ _ ih => simp [ih]

theorem Handed.set {H roots trees fp xs us} (h : Handed H roots trees fp xs us) {r : Nat} (hr : r ∉ us.filterMap (·.2)) :
    Handed H (roots.set r .none) (trees.set r .none) fp xs us := by
  induction h with
  | nil => exact .nil
  | @tree x u r' xs us h1 h2 _ ih =>
    simp only [List.filterMap_cons, List.mem_cons, not_or] at hr
    exact .tree (by rw [List.getElem?_set_ne hr.1]; exact h1) (by rw [List.getElem?_set_ne hr.1]; exact h2) (ih hr.2)
  | value h1 h2 h3 _ ih => exact .value h1 h2 h3 (ih hr)

/-- The trees that are handed over leave the forest; together with what stays they are what was there. -/
theorem Handed.detach {H : Heap} {fp0 : List Nat} : ∀ {xs us roots trees fp}, Handed H roots trees fp0 xs us → RepItems H roots trees fp → (∀ b ∈ fp, b ∈ fp0) →
    (us.filterMap (·.2)).Nodup → ∃ fp1 fx, RepItems H (blank .none roots (us.filterMap (·.2))) (blank .none trees (us.filterMap (·.2))) fp1 ∧
      RepItems H xs (us.map (·.1)) fx ∧ (∀ b, H.Mutable b → fp1.count b + fx.count b ≤ fp.count b) ∧ (∀ b, b ∈ fp1 ∨ b ∈ fx → b ∈ fp0)
  | _, _, _, _, fp, .nil, rs, sub, _ => ⟨fp, [], rs, .nil, fun b _ => by simp, fun b h => by simpa using h.imp (sub b) id⟩
  | _, _, roots, trees, fp, .tree (r := r) (x := x) (u := u) (us := us) h1 h2 h, rs, sub, nd => by
    have nd' : r ∉ us.filterMap (·.2) ∧ (us.filterMap (·.2)).Nodup := List.nodup_cons.1 nd
    obtain ⟨f, A, B, e, rx, plug⟩ := rs.get? h1 h2
    have rs' := plug H .none .none [] .none fun _ _ => rfl
    have sub' : ∀ b ∈ A ++ [] ++ B, b ∈ fp0 := fun b hb => sub b (by
      rw [e]; simp only [List.append_nil, List.mem_append] at hb ⊢; rcases hb with hb | hb <;> simp [hb])
    obtain ⟨fp1, fx, g1, g2, g3, g4⟩ := (h.set nd'.1).detach rs' sub' nd'.2
    refine ⟨fp1, f ++ fx, g1, .cons rx g2, fun b hb => ?_, fun b hb => ?_⟩
    · have := g3 b hb
      rw [e]
      simp only [List.count_append, List.append_nil] at this ⊢
      omega
    · rcases hb with hb | hb
      · exact g4 b (.inl hb)
      · rcases List.mem_append.1 hb with hb | hb
        · exact sub b (by rw [e]; simp [hb])
        · exact g4 b (.inr hb)
  | _, _, roots, trees, fp, .value (f := f) h1 h2 h3 h, rs, sub, nd => by
    obtain ⟨fp1, fx, g1, g2, g3, g4⟩ := h.detach rs sub nd
    refine ⟨fp1, f ++ fx, g1, .cons h1 g2, fun b hb => ?_, fun b hb => ?_⟩
    · have := g3 b hb
      have : f.count b = 0 := List.count_eq_zero.2 fun hm => h2 b hm hb
      simp only [List.count_append]
      omega
    · rcases hb with hb | hb
      · exact g4 b (.inl hb)
      · rcases List.mem_append.1 hb with hb | hb
        · exact h3 b hb
        · exact g4 b (.inr hb)

theorem Handed.find {H roots trees fp xs us} (h : Handed H roots trees fp xs us) {r m : Nat}
    (hm : us.findIdx? (fun u => u.2 == some r) = some m) : ∃ x, xs[m]? = some x ∧ roots[r]? = some x ∧ r ∈ us.filterMap (·.2) := by
  induction h generalizing m with
  | nil => cases hm
  | @tree x u r' xs us h1 h2 h ih =>
    rw [List.findIdx?_cons] at hm
    by_cases e : r' = r
    · subst e
      simp only [BEq.rfl, if_true, Option.some.injEq] at hm
      subst hm
      exact ⟨x, rfl, h1, by simp⟩
    · have : ((some r' == some r) = true) = False := by simp [e]
      simp only [this, if_false, Option.map_eq_some_iff] at hm
      obtain ⟨m', hm', rfl⟩ := hm
      obtain ⟨x', k1, k2, k3⟩ := ih hm'
      exact ⟨x', by simpa using k1, k2, by simp [k3]⟩
  | @value x u f xs us h1 h2 h3 h ih =>
    rw [List.findIdx?_cons] at hm
    have : ((Option.none == some r) = true) = False := by simp
    simp only [this, if_false, Option.map_eq_some_iff] at hm
    obtain ⟨m', hm', rfl⟩ := hm
    obtain ⟨x', k1, k2, k3⟩ := ih hm'
    exact ⟨x', by simpa using k1, k2, by simpa using k3⟩

theorem find_none {us : List (ObjTree × Option Nat)} {r : Nat} (hm : us.findIdx? (fun u => u.2 == some r) = Option.none) : r ∉ us.filterMap (·.2) := by
  rw [List.findIdx?_eq_none_iff] at hm
  intro h
  obtain ⟨u, hu, e⟩ := List.mem_filterMap.1 h
  have := hm u hu
  simp [e] at this

/-! ## a change of one object -/

theorem inside_some {p q : ObjPath} {st rest} (h : Forest.inside p q = some (st, rest)) : q = p ++ st :: rest := by
  unfold Forest.inside at h
  split at h
  · next hp =>
    split at h
    · next st' rest' e =>
      cases h
      obtain ⟨q', rfl⟩ := hp
      rw [List.drop_left] at e
      rw [e]
    · cases h
  · cases h

theorem inside_none {p q : ObjPath} (h : Forest.inside p q = Option.none) (st : PathStep) (rest : ObjPath) : q ≠ p ++ st :: rest := by
  rintro rfl
  unfold Forest.inside at h
  rw [if_pos (List.prefix_append _ _), List.drop_left] at h
  cases h

theorem mutable_set {H : Heap} {a : Nat} {c : Cell} (hc : ∀ ts, c ≠ .tuple ts) (ha : H.Mutable a) (b : Nat) : Heap.Mutable (H.set a c) b ↔ H.Mutable b := by
  by_cases e : a = b
  · subst e
    have ha' := ha
    obtain ⟨c0, h0, _⟩ := ha'
    exact iff_of_true ⟨c, getElem?_set_self' (lt_of_cell h0) c, hc⟩ ha
  · unfold Heap.Mutable
    rw [List.getElem?_set_ne e]

theorem Holds.change {H : Heap} {names : List HVal} {F : Forest} {roots : List HVal} {fp : List Nat} (h : Holds ⟨H, names⟩ F roots fp)
    {r a : Nat} {p : ObjPath} {u t : ObjTree} {root : HVal} (hroot : roots[r]? = some root) (hf : H.follow root p = some (.ref a)) (ha : H.Mutable a)
    (ht : F.trees[r]? = some t) (hu : t.get p = some u) {xs : List HVal} {us : List (ObjTree × Option Nat)}
    (hd : Handed H roots F.trees fp xs us) (nd : (us.filterMap (·.2)).Nodup) (nr : r ∉ us.filterMap (·.2)) {c : Cell} (hc : ∀ ts, c ≠ .tuple ts)
    {node : ObjTree} {out : List ObjTree} {outv : List HVal} {entry : Nat → PathStep} {moved : PathStep → Spot}
    (N : ∀ fo fx, Rep H (.ref a) u fo → RepItems H xs (us.map (·.1)) fx → a ∉ fx → ∃ fo' fout, Rep (H.set a c) (.ref a) node fo' ∧
      RepItems (H.set a c) outv out fout ∧ ∀ b, fo'.count b + fout.count b ≤ fo.count b + fx.count b)
    (E : ∀ m x, xs[m]? = some x → Heap.step (H.set a c) (.ref a) (entry m) = some x)
    (M : ∀ st v, H.step (.ref a) st = some v → (∃ st', moved st = (r, p ++ [st']) ∧ Heap.step (H.set a c) (.ref a) st' = some v) ∨
      ∃ m, moved st = (F.trees.length + m, []) ∧ outv[m]? = some v) :
    ∃ fp', Holds ⟨H.set a c, names⟩ (F.change (r, p) node us entry out moved) (blank .none roots (us.filterMap (·.2)) ++ outv) fp' ∧
      (∀ b ∈ fp', b ∈ fp) ∧ a ∈ fp := by
  obtain ⟨rs, own, hl, hn⟩ := h
  dsimp only at rs own hl hn
  have hlen := rs.length
  -- the tree
  obtain ⟨ft0, A0, B0, e0, rt, _⟩ := rs.get? hroot ht
  have ha1 : a ∈ ft0 := rt.follow_mem hf
  have c1 := own a ha
  have cft : ft0.count a = 1 := by
    have := List.count_pos_iff.2 ha1
    rw [e0] at c1
    simp only [List.count_append] at c1
    omega
  have afp : a ∈ fp := by rw [e0]; simp [ha1]
  -- the parts handed over leave
  obtain ⟨fp1, fx, g1, g2, g3, g4⟩ := hd.detach rs (fun _ hb => hb) nd
  have hroot1 : (blank .none roots (us.filterMap (·.2)))[r]? = some root := by rw [blank_out _ _ _ nr]; exact hroot
  have ht1 : (blank .none F.trees (us.filterMap (·.2)))[r]? = some t := by rw [blank_out _ _ _ nr]; exact ht
  obtain ⟨ft, A, B, e1, rt1, plug⟩ := g1.get? hroot1 ht1
  obtain ⟨-, rfl⟩ := rt.det rt1
  have g3a := g3 a ha
  have ca : A.count a = 0 ∧ B.count a = 0 ∧ fx.count a = 0 := by
    rw [e1] at g3a
    simp only [List.count_append] at g3a
    omega
  obtain ⟨w, fo, A', B', hw, ro, e2, plug'⟩ := rt.at_place (eval_get.2 hu)
  rw [hf] at hw
  obtain rfl := Option.some.inj hw
  have cfo : fo.count a = 1 := by
    obtain ⟨fps, e, na⟩ := ro.acyclic
    rw [e, List.count_cons_self, List.count_eq_zero.2 na]
  have ca' : A'.count a = 0 ∧ B'.count a = 0 := by
    rw [e2] at cft
    simp only [List.count_append] at cft
    omega
  have zero : ∀ {l : List Nat}, l.count a = 0 → ∀ x ∈ l, (H.set a c)[x]? = H[x]? := fun hz x hx =>
    List.getElem?_set_ne fun (e : a = x) => List.count_eq_zero.1 hz (e ▸ hx)
  obtain ⟨fo', fout, ro', rout, cnt⟩ := N fo fx ro g2 (List.count_eq_zero.1 ca.2.2)
  have rt' := plug' (H.set a c) node fo' ro' fun x hx => hx.elim (zero ca'.1 x) (zero ca'.2 x)
  have rs' := (plug (H.set a c) root _ _ rt' fun x hx => hx.elim (zero ca.1 x) (zero ca.2.1 x)).append rout
  rw [set_getElem? hroot1] at rs'
  have etrees : (F.change (r, p) node us entry out moved).trees = (blank .none F.trees (us.filterMap (·.2))).set r (t.put p node) ++ out := by
    show blank .none (F.trees.modify r fun t => t.put p node) (us.filterMap (·.2)) ++ out = _
    have : F.trees.modify r (fun t => t.put p node) = F.trees.set r (t.put p node) := by
      rw [List.modify_eq_set]
      rw [List.getElem?_eq_some_iff] at ht
      obtain ⟨hlt, ht⟩ := ht
      simp [List.getD, ht, hlt]
    rw [this, blank_set _ _ _ _ nr]
  rw [← etrees] at rs'
  have total : ∀ b, (A ++ (A' ++ fo' ++ B') ++ B ++ fout).count b ≤ fp1.count b + fx.count b := by
    intro b
    have := cnt b
    rw [e1, e2]
    simp only [List.count_append]
    omega
  refine ⟨_, ⟨rs', fun b hb => ?_, ?_, fun k r' q hq => ?_⟩, fun b hb => ?_, afp⟩
  · have hb' := (mutable_set hc ha b).1 hb
    exact Nat.le_trans (total b) (Nat.le_trans (g3 b hb') (own b hb'))
  · show names.length = (F.spots.map _).length
    rw [List.length_map]
    exact hl
  · -- where the named objects are
    have hq' : (F.spots.map fun q : Spot =>
      if q.1 = r then
        match Forest.inside p q.2 with
        | some (st, rest) => ((moved st).1, (moved st).2 ++ rest)
        | Option.none => q
      else
        match us.findIdx? (fun u => u.2 == some q.1) with
        | some m => (r, p ++ entry m :: q.2)
        | Option.none => q)[k]? = some (r', q) := hq
    rw [List.getElem?_map, Option.map_eq_some_iff] at hq'
    obtain ⟨⟨r0, q0⟩, hk, hq2⟩ := hq'
    obtain ⟨root0, b, k1, k2, k3⟩ := hn k r0 q0 hk
    dsimp only at hq2 k1 k2 k3 ⊢
    have hlb : (blank (HVal.none) roots (us.filterMap (·.2))).length = F.trees.length := by rw [blank_length, hlen]
    have keepRoot : ∀ {i : Nat} {x : HVal}, i ∉ us.filterMap (·.2) → roots[i]? = some x →
        (blank HVal.none roots (us.filterMap (·.2)) ++ outv)[i]? = some x := by
      intro i x hi hx
      rw [List.getElem?_append_left (by rw [blank_length]; exact (List.getElem?_eq_some_iff.1 hx).1), blank_out _ _ _ hi]
      exact hx
    by_cases er : r0 = r
    · subst er
      rw [if_pos rfl] at hq2
      rw [hroot] at k1
      obtain rfl := Option.some.inj k1
      have outOf : ∀ q : ObjPath, Forest.inside p q = Option.none → ∀ w, H.follow root q = some w → Heap.follow (H.set a c) root q = some w := by
        intro q hi w hw
        refine follow_set hw fun q' st rest e hf' => ?_
        have := rt.follow_once (by omega) hf' hf
        exact inside_none hi st rest (by rw [e, this])
      have here : Heap.follow (H.set a c) root p = some (.ref a) := outOf p (by
        unfold Forest.inside
        rw [if_pos (List.prefix_refl _), List.drop_length]) _ hf
      cases hi : Forest.inside p q0 with
      | none =>
        rw [hi] at hq2
        obtain ⟨rfl, rfl⟩ := Prod.mk.inj hq2
        exact ⟨root, b, keepRoot nr hroot, k2, outOf _ hi _ k3⟩
      | some sr =>
        obtain ⟨st, rest⟩ := sr
        rw [hi] at hq2
        have hq0 := inside_some hi
        subst hq0
        rw [follow_inside hf] at k3
        cases hs : H.step (.ref a) st with
        | none => rw [hs] at k3; cases k3
        | some v =>
          rw [hs] at k3
          obtain ⟨a', fps, tv, fv, ea, efo, rv, sub⟩ := ro.step_sub hs
          cases ea
          have hv : Heap.follow (H.set a c) v rest = some (.ref b) := by
            rw [follow_frame rv fun x hx => List.getElem?_set_ne fun e => ?_]
            · exact k3
            · rw [efo, List.count_cons_self] at cfo
              have := List.count_pos_iff.2 (sub.subset hx)
              rw [← e] at this
              omega
          rcases M st v hs with ⟨st', em, hs'⟩ | ⟨m, em, hm⟩
          · dsimp only at hq2
            rw [em] at hq2
            obtain ⟨rfl, rfl⟩ := Prod.mk.inj hq2
            refine ⟨root, b, keepRoot nr hroot, k2, ?_⟩
            rw [List.append_assoc, List.singleton_append, follow_inside here, hs']
            exact hv
          · dsimp only at hq2
            rw [em] at hq2
            obtain ⟨rfl, rfl⟩ := Prod.mk.inj hq2
            refine ⟨v, b, ?_, k2, hv⟩
            rw [← hlb, List.getElem?_append_right (Nat.le_add_right _ _), Nat.add_sub_cancel_left]
            exact hm
    · rw [if_neg er] at hq2
      have far : Heap.follow (H.set a c) root0 q0 = some (.ref b) := by
        obtain ⟨t0, f0, rr0, sub0⟩ := rs.item k1
        rw [follow_frame rr0 fun x hx => List.getElem?_set_ne fun e => ?_]
        · exact k3
        · subst e
          obtain ⟨w1, f1, w2, f2, ra1, ra2, cc⟩ := rs.apart k1 hroot er
          obtain ⟨-, rfl⟩ := ra1.det rr0
          obtain ⟨-, rfl⟩ := ra2.det rt
          have := cc a
          have := List.count_pos_iff.2 hx
          omega
      cases hi : us.findIdx? (fun u => u.2 == some r0) with
      | none =>
        rw [hi] at hq2
        obtain ⟨rfl, rfl⟩ := Prod.mk.inj hq2
        exact ⟨root0, b, keepRoot (find_none hi) k1, k2, far⟩
      | some m =>
        rw [hi] at hq2
        obtain ⟨rfl, rfl⟩ := Prod.mk.inj hq2
        obtain ⟨x, j1, j2, j3⟩ := hd.find hi
        rw [k1] at j2
        obtain rfl := Option.some.inj j2
        refine ⟨root, b, keepRoot nr hroot, k2, ?_⟩
        have here : Heap.follow (H.set a c) root p = some (.ref a) := by
          refine follow_set hf fun q' st rest e hf' => ?_
          have := rt.follow_once (by omega) hf' hf
          rw [this] at e
          simp at e
        rw [follow_inside here, E m _ j1]
        exact far
  · have hb2 : 0 < fp1.count b + fx.count b := Nat.lt_of_lt_of_le (List.count_pos_iff.2 hb) (total b)
    by_cases hz : 0 < fp1.count b
    · exact g4 b (.inl (List.count_pos_iff.1 hz))
    · exact g4 b (.inr (List.count_pos_iff.1 (by omega)))

end Genie
