import Verif.Proof.Heap.Forest
/-! # Every operation of a script, in memory and on values -/

namespace Genie
open HReader ObjTree

/-! ## the objects that have names -/

theorem Holds.spot {H : Heap} {names : List HVal} {F : Forest} {roots : List HVal} {fp : List Nat} (h : Holds ⟨H, names⟩ F roots fp) {k r : Nat} {p : ObjPath}
    (e : F.spots[k]? = some (r, p)) : ∃ root a t u fu, roots[r]? = some root ∧ named names k = .ref a ∧ H.follow root p = some (.ref a) ∧
      F.trees[r]? = some t ∧ t.get p = some u ∧ Rep H (.ref a) u fu ∧ F.value k = u ∧ (∀ b, fu.count b ≤ fp.count b) ∧
      (p = [] → root = .ref a ∧ t = u) := by
  obtain ⟨rs, own, hl, hn⟩ := h
  dsimp only at rs own hl hn
  obtain ⟨root, a, h1, h2, h3⟩ := hn k r p e
  have hr : r < F.trees.length := by rw [← rs.length]; exact (List.getElem?_eq_some_iff.1 h1).1
  obtain ⟨t, ht⟩ : ∃ t, F.trees[r]? = some t := ⟨_, List.getElem?_eq_getElem hr⟩
  obtain ⟨f, A, B, e1, rt, _⟩ := rs.get? h1 ht
  obtain ⟨u, fu, hu, ru⟩ := ObjTree.get_some_of_follow rt h3
  obtain ⟨w, f', A', B', hw, rw', e2, _⟩ := rt.at_place (eval_get.2 hu)
  rw [h3] at hw
  obtain rfl := Option.some.inj hw
  obtain ⟨-, rfl⟩ := ru.det rw'
  refine ⟨root, a, t, u, fu, h1, by unfold named; rw [h2]; rfl, h3, ht, hu, ru, ?_, fun b => ?_, ?_⟩
  · unfold Forest.value Forest.at'
    rw [e]
    dsimp only
    rw [ht]
    dsimp only
    rw [hu]
    rfl
  · rw [e1, e2]; simp only [List.count_append]; omega
  · rintro rfl
    exact ⟨by cases h3; rfl, by cases hu; rfl⟩

theorem Holds.nospot {H : Heap} {names : List HVal} {F : Forest} {roots : List HVal} {fp : List Nat} (h : Holds ⟨H, names⟩ F roots fp) {k : Nat}
    (e : F.spots[k]? = Option.none) : named names k = .none ∧ F.value k = .none := by
  have hl : names.length = F.spots.length := h.2.2.1
  have : names[k]? = Option.none := by
    rw [List.getElem?_eq_none_iff] at e ⊢
    omega
  exact ⟨by unfold named; rw [this]; rfl, by unfold Forest.value; rw [e]⟩

/-- Handing a value to the script. -/
theorem Holds.hand {H : Heap} {names : List HVal} {F : Forest} {roots : List HVal} {fp : List Nat} (h : Holds ⟨H, names⟩ F roots fp) {r : Nat} {p : ObjPath}
    {root v : HVal} (hr : roots[r]? = some root) (hf : H.follow root p = some v) :
    (Memory.hand H names v).1 = (F.hand (r, p)).1 ∧ Holds (Memory.hand H names v).2 (F.hand (r, p)).2 roots fp ∧ (Memory.hand H names v).2.heap = H ∧
      names <+: (Memory.hand H names v).2.names := by
  have h0 := h
  obtain ⟨rs, own, hl, hn⟩ := h0
  dsimp only at rs own hl hn
  have hr' : r < F.trees.length := by rw [← rs.length]; exact (List.getElem?_eq_some_iff.1 hr).1
  obtain ⟨t, ht⟩ : ∃ t, F.trees[r]? = some t := ⟨_, List.getElem?_eq_getElem hr'⟩
  obtain ⟨f, A, B, e1, rt, _⟩ := rs.get? hr ht
  obtain ⟨u, fu, hu, ru⟩ := ObjTree.get_some_of_follow rt hf
  have hat : F.at' (r, p) = u := by
    unfold Forest.at'
    dsimp only
    rw [ht]
    dsimp only
    rw [hu]
    rfl
  have more : ∀ a, v = .ref a → Holds ⟨H, names ++ [.ref a]⟩ { F with spots := F.spots ++ [(r, p)] } roots fp := by
    rintro a rfl
    refine ⟨rs, own, by simp [hl], fun k r' q hq => ?_⟩
    dsimp only at hq ⊢
    by_cases hk : k < F.spots.length
    · rw [List.getElem?_append_left hk] at hq
      obtain ⟨root', b, k1, k2, k3⟩ := hn k r' q hq
      exact ⟨root', b, k1, by rw [List.getElem?_append_left (by omega)]; exact k2, k3⟩
    · rw [List.getElem?_append_right (by omega)] at hq
      have hk' : k = F.spots.length := by
        have := (List.getElem?_eq_some_iff.1 hq).1
        simp at this
        omega
      subst hk'
      simp at hq
      obtain ⟨rfl, rfl⟩ := hq
      exact ⟨root, a, hr, by rw [← hl]; simp, hf⟩
  unfold Forest.hand
  rw [hat]
  cases ru with
  | none => exact ⟨rfl, h, rfl, List.prefix_refl _⟩
  | int => exact ⟨rfl, h, rfl, List.prefix_refl _⟩
  | float => exact ⟨rfl, h, rfl, List.prefix_refl _⟩
  | str => exact ⟨rfl, h, rfl, List.prefix_refl _⟩
  | list hc => exact ⟨by simp [Memory.hand, hl, hc, Cell.kind], more _ rfl, rfl, List.prefix_append _ _⟩
  | tuple hc => exact ⟨by simp [Memory.hand, hl, hc, Cell.kind], more _ rfl, rfl, List.prefix_append _ _⟩
  | obj hc => exact ⟨by simp [Memory.hand, hl, hc, Cell.kind], more _ rfl, rfl, List.prefix_append _ _⟩

/-! ## what is handed to an operation -/

theorem Holds.arg {H : Heap} {names : List HVal} {F : Forest} {roots : List HVal} {fp : List Nat} (h : Holds ⟨H, names⟩ F roots fp) {v : Arg}
    {u : ObjTree × Option Nat} (e : F.arg v = some u) {xs us} (k : Handed H roots F.trees fp xs us) :
    Handed H roots F.trees fp (v.value names :: xs) (u :: us) := by
  cases v with
  | none => cases e; exact .value .none (by simp) (by simp) k
  | int i => cases e; exact .value (.int i) (by simp) (by simp) k
  | float x => cases e; exact .value (.float x) (by simp) (by simp) k
  | str s => cases e; exact .value (.str s) (by simp) (by simp) k
  | object o =>
    show Handed H roots F.trees fp (named names o :: xs) (u :: us)
    unfold Forest.arg at e
    dsimp only at e
    cases hs : F.spots[o]? with
    | none =>
      obtain ⟨e1, e2⟩ := h.nospot hs
      rw [e2] at e
      simp only [ObjTree.immutable, if_true, Option.some.injEq] at e
      subst e
      rw [e1]
      exact .value .none (by simp) (by simp) k
    | some rp =>
      obtain ⟨r, p⟩ := rp
      obtain ⟨root, a, t, w, fu, h1, h2, h3, h4, h5, h6, h7, h8, h9⟩ := h.spot hs
      rw [hs, h7] at e
      rw [h2]
      split at e
      · next hi =>
        cases e
        exact .value h6 (h6.immutable (ObjTree.immutable_spec hi)) (fun b hb => List.count_pos_iff.1
          (Nat.lt_of_lt_of_le (List.count_pos_iff.2 hb) (h8 b))) k
      · split at e
        · next r' er =>
          cases e
          cases er
          obtain ⟨rfl, rfl⟩ := h9 rfl
          exact .tree h1 h4 k
        · cases e

theorem Holds.mapArgs {H : Heap} {names : List HVal} {F : Forest} {roots : List HVal} {fp : List Nat} (h : Holds ⟨H, names⟩ F roots fp) :
    ∀ {vs : List Arg} {us}, vs.mapM F.arg = some us → Handed H roots F.trees fp (vs.map (Arg.value names)) us
  | [], us, e => by cases e; exact .nil
  | v :: vs, us, e => by
    rw [List.mapM_cons] at e
    cases e1 : F.arg v with
    | none => rw [e1] at e; cases e
    | some u =>
      rw [e1] at e
      cases e2 : vs.mapM F.arg with
      | none => rw [e2] at e; cases e
      | some us' =>
        rw [e2] at e
        cases e
        exact h.arg e1 (h.mapArgs e2)

theorem Holds.args {H : Heap} {names : List HVal} {F : Forest} {roots : List HVal} {fp : List Nat} (h : Holds ⟨H, names⟩ F roots fp)
    {home : Option Nat} {vs : List Arg} {us} (e : F.args home vs = some us) : Handed H roots F.trees fp (vs.map (Arg.value names)) us ∧
      (us.filterMap (·.2)).Nodup ∧ ∀ r, home = some r → r ∉ us.filterMap (·.2) := by
  unfold Forest.args at e
  cases e1 : vs.mapM F.arg with
  | none => rw [e1] at e; cases e
  | some us' =>
    rw [e1] at e
    dsimp only at e
    split at e
    · next hc =>
      cases e
      exact ⟨h.mapArgs e1, hc.1, hc.2⟩
    · cases e

/-! ## lists -/

theorem pyIndex_eq (n : Nat) (i : Int) : pyIndex n i = position n i := by
  unfold pyIndex position
  cases i with
  | ofNat k =>
    have h1 : ¬ (Int.ofNat k < 0) := by simp
    simp only [h1, if_false]
    by_cases hk : k < n
    · rw [if_pos hk, if_pos (by constructor <;> simp <;> omega)]
      simp
    · rw [if_neg hk, if_neg (by simp; omega)]
  | negSucc k =>
    have h1 : Int.negSucc k < 0 := by simp
    simp only [h1, if_true]
    by_cases hk : k + 1 ≤ n
    · rw [if_pos hk, if_pos (by omega)]
      congr 1
      omega
    · rw [if_neg hk, if_neg (by omega)]

theorem pyBound_eq (n : Nat) (i : Int) : pyBound n i = bound n i := by
  unfold pyBound bound
  cases i with
  | ofNat k =>
    have h1 : ¬ (Int.ofNat k < 0) := by simp
    simp only [h1, if_false]
    by_cases hk : k ≤ n
    · rw [if_neg (by simp; omega)]; simp; omega
    · rw [if_pos (by simp; omega)]; omega
  | negSucc k =>
    have h1 : Int.negSucc k < 0 := by simp
    simp only [h1, if_true]
    by_cases hk : k + 1 ≤ n
    · rw [if_neg (by omega), if_neg (by omega)]; omega
    · rw [if_pos (by omega)]; omega

theorem position_lt {n : Nat} {i : Int} {j : Nat} (h : position n i = some j) : j < n := by
  unfold position at h
  cases i <;> dsimp only at h <;> split at h <;> cases h <;> omega

theorem bound_le (n : Nat) (i : Int) : bound n i ≤ n := by
  unfold bound
  cases i <;> dsimp only <;> omega

/-- Some elements of a list taken out and others put there. -/
theorem Holds.splice {H : Heap} {names : List HVal} {F : Forest} {roots : List HVal} {fp : List Nat} (h : Holds ⟨H, names⟩ F roots fp) {o r a : Nat}
    {p : ObjPath} {ts : List ObjTree} {vs : List HVal} (hs : F.spots[o]? = some (r, p)) (hv : F.value o = .list ts) (ha : named names o = .ref a)
    (hc : H[a]? = some (.list vs)) {i k : Nat} (hi : i ≤ k) (hk : k ≤ ts.length) {xs : List HVal} {us : List (ObjTree × Option Nat)}
    (hd : Handed H roots F.trees fp xs us) (nd : (us.filterMap (·.2)).Nodup) (nr : r ∉ us.filterMap (·.2)) :
    ∃ fp', Holds ⟨H.set a (.list (vs.take i ++ xs ++ vs.drop k)), names⟩ (F.splice (r, p) ts i k us)
        (blank .none roots (us.filterMap (·.2)) ++ (vs.take k).drop i) fp' ∧ (∀ b ∈ fp', b ∈ fp) ∧ a ∈ fp := by
  obtain ⟨root, a', t, u, fu, h1, h2, h3, h4, h5, h6, h7, h8, -⟩ := h.spot hs
  rw [ha] at h2
  cases h2
  rw [hv] at h7
  subst h7
  obtain ⟨_, vs', fps, e, rfl, hc', rs⟩ := h6.list_inv
  cases e
  rw [hc] at hc'
  cases hc'
  have hl := rs.length
  have hul := hd.length
  refine h.change (c := .list (vs.take i ++ xs ++ vs.drop k)) h1 h3 ⟨_, hc, fun _ e => nomatch e⟩ h4 h5 hd nd nr (fun _ e => nomatch e) ?_ ?_ ?_
  · intro fo fx ro rx hax
    obtain ⟨-, rfl⟩ := ro.det h6
    obtain ⟨_, e, na⟩ := h6.acyclic
    cases e
    obtain ⟨A, R, e1, k1, k2⟩ := rs.split i
    obtain ⟨G, B, e2, k3, k4⟩ := k2.split (k - i)
    rw [List.drop_drop, List.drop_drop, Nat.add_sub_cancel' hi] at k4
    rw [← List.drop_take, ← List.drop_take] at k3
    have naA : a ∉ A ∧ a ∉ G ∧ a ∉ B := by
      rw [e1, e2] at na
      simp only [List.mem_append, not_or] at na
      exact ⟨na.1, na.2.1, na.2.2⟩
    refine ⟨a :: (A ++ fx ++ B), G, .list (getElem?_set_self' (lt_of_cell hc) _)
      (((k1.set naA.1 _).append (rx.set hax _)).append (k4.set naA.2.2 _)), k3.set naA.2.1 _, fun b => ?_⟩
    rw [e1, e2]
    simp only [List.count_cons, List.count_append]
    omega
  · intro m x hm
    have hlt := (List.getElem?_eq_some_iff.1 hm).1
    show Heap.step _ (.ref a) (.item (i + m)) = some x
    unfold Heap.step
    simp only [getElem?_set_self' (lt_of_cell hc)]
    have hti : (vs.take i).length = i := by rw [List.length_take]; omega
    rw [List.append_assoc, List.getElem?_append_right (by omega), hti, Nat.add_sub_cancel_left,
      List.getElem?_append_left hlt]
    exact hm
  · intro st v hst
    have hti : (vs.take i).length = i := by rw [List.length_take]; omega
    unfold Heap.step at hst
    simp only [hc] at hst
    cases st with
    | attr => cases hst
    | item j =>
      have hj := (List.getElem?_eq_some_iff.1 hst).1
      dsimp only at hst ⊢
      by_cases h1 : j < i
      · refine .inl ⟨.item j, by rw [if_pos h1], ?_⟩
        unfold Heap.step
        simp only [getElem?_set_self' (lt_of_cell hc)]
        rw [List.append_assoc, List.getElem?_append_left (by omega), List.getElem?_take, if_pos h1]
        exact hst
      · by_cases h2 : j < k
        · refine .inr ⟨j - i, by rw [if_neg h1, if_pos h2], ?_⟩
          rw [List.getElem?_drop, List.getElem?_take, if_pos (by omega), Nat.add_sub_cancel' (by omega)]
          exact hst
        · refine .inl ⟨.item (j - k + i + us.length), by rw [if_neg h1, if_neg h2], ?_⟩
          unfold Heap.step
          simp only [getElem?_set_self' (lt_of_cell hc)]
          rw [List.getElem?_append_right (by rw [List.length_append, hti]; omega), List.length_append, hti, List.getElem?_drop]
          have : k + (j - k + i + us.length - (i + xs.length)) = j := by omega
          rw [this]
          exact hst

/-! ## attributes -/

theorem lookup_assign_self {n : PyStr} {v : HVal} : ∀ {vs : List (PyStr × HVal)} {w}, lookup n vs = some w → lookup n (HReader.assign n v vs) = some v
  | (m, w') :: vs, w, h => by
    unfold lookup at h
    unfold HReader.assign
    by_cases e : m = n
    · rw [if_pos e]; unfold lookup; rw [if_pos e]
    · rw [if_neg e] at h ⊢
      unfold lookup
      rw [if_neg e]
      exact lookup_assign_self h

theorem lookup_assign_ne {n m : PyStr} {v : HVal} (ne : n ≠ m) : ∀ {vs : List (PyStr × HVal)}, lookup m (HReader.assign n v vs) = lookup m vs
  | [] => rfl
  | (k, w) :: vs => by
    unfold HReader.assign
    by_cases e : k = n
    · rw [if_pos e]; unfold lookup; rw [if_neg (fun e' => ne (e.symm.trans e')), if_neg (fun e' => ne (e.symm.trans e'))]
    · rw [if_neg e]
      conv => lhs; unfold lookup
      conv => rhs; unfold lookup
      rw [lookup_assign_ne ne]

theorem lookup_snoc_self {n : PyStr} {v : HVal} : ∀ {vs : List (PyStr × HVal)}, lookup n vs = Option.none → lookup n (vs ++ [(n, v)]) = some v
  | [], _ => by simp [lookup]
  | (m, w) :: vs, h => by
    unfold lookup at h
    rw [List.cons_append]
    unfold lookup
    by_cases e : m = n
    · rw [if_pos e] at h; cases h
    · rw [if_neg e] at h ⊢; exact lookup_snoc_self h

theorem lookup_snoc_of_some {n m : PyStr} {v w : HVal} : ∀ {vs : List (PyStr × HVal)}, lookup m vs = some w → lookup m (vs ++ [(n, v)]) = some w
  | (k, x) :: vs, h => by
    unfold lookup at h
    rw [List.cons_append]
    unfold lookup
    by_cases e : k = m
    · rw [if_pos e] at h ⊢; exact h
    · rw [if_neg e] at h ⊢; exact lookup_snoc_of_some h

/-- An attribute assigned. -/
theorem Holds.assign {H : Heap} {names : List HVal} {F : Forest} {roots : List HVal} {fp : List Nat} (h : Holds ⟨H, names⟩ F roots fp) {o r a : Nat}
    {p : ObjPath} {cls n : PyStr} {ts : List (PyStr × ObjTree)} {vs : List (PyStr × HVal)} (hs : F.spots[o]? = some (r, p)) (hv : F.value o = .obj cls ts)
    (ha : named names o = .ref a) (hc : H[a]? = some (.record cls vs)) {x : HVal} {u : ObjTree × Option Nat}
    (hd : Handed H roots F.trees fp [x] [u]) (nr : r ∉ [u].filterMap (·.2)) :
    ∃ fp' roots', Holds ⟨H.set a (.record cls (if (lookup n vs).isSome then HReader.assign n x vs else vs ++ [(n, x)])), names⟩ (F.assign (r, p) cls ts n u)
        roots' fp' ∧ (∀ b ∈ fp', b ∈ fp) ∧ a ∈ fp := by
  obtain ⟨root, a', t, w, fu, h1, h2, h3, h4, h5, h6, h7, h8, -⟩ := h.spot hs
  rw [ha] at h2
  cases h2
  rw [hv] at h7
  subst h7
  obtain ⟨_, vs', fps, e, rfl, hc', rs⟩ := h6.obj_inv
  cases e
  rw [hc] at hc'
  cases hc'
  have nd : ([u].filterMap (·.2)).Nodup := by
    cases hu : u.2 <;> simp [hu]
  obtain ⟨_, e, na⟩ := h6.acyclic
  cases e
  unfold Forest.assign
  cases ho : attrOf n ts with
  | some old =>
    obtain ⟨w0, fw, A, B, g1, g2, g3, g4⟩ := rs.hole ho
    rw [if_pos (by rw [g1]; rfl)]
    have naA : a ∉ A ∧ a ∉ fw ∧ a ∉ B := by
      rw [g3] at na
      simp only [List.mem_append, not_or] at na
      exact ⟨na.1.1, na.1.2, na.2⟩
    obtain ⟨fp', k⟩ := h.change (c := .record cls (HReader.assign n x vs)) (node := .obj cls (setAttrOf n u.1 ts)) (out := [old]) (outv := [w0])
      (entry := fun _ => .attr n) (moved := fun st => if st = .attr n then (F.trees.length, []) else (r, p ++ [st]))
      h1 h3 ⟨_, hc, fun _ e => nomatch e⟩ h4 h5 hd nd nr (fun _ e => nomatch e) (by
        intro fo fx ro rx hax
        obtain ⟨-, rfl⟩ := ro.det h6
        cases rx with
        | @cons _ _ fx' _ _ fn rx rn =>
          cases rn
          rw [List.append_nil] at hax ⊢
          refine ⟨a :: (A ++ fx' ++ B), fw ++ [], .obj (getElem?_set_self' (lt_of_cell hc) _) (g4 _ x u.1 fx' (rx.set hax _) fun y hy =>
            List.getElem?_set_ne fun e => ?_), .cons (g2.set naA.2.1 _) .nil, fun b => ?_⟩
          · subst e
            exact hy.elim naA.1 naA.2.2
          · rw [g3]
            simp only [List.count_cons, List.count_append, List.append_nil]
            omega) (by
        intro m y hm
        unfold Heap.step
        simp only [getElem?_set_self' (lt_of_cell hc)]
        rw [lookup_assign_self g1]
        cases m with
        | zero => exact hm
        | succ m => simp at hm) (by
        intro st v hst
        unfold Heap.step at hst
        simp only [hc] at hst
        cases st with
        | item => cases hst
        | attr m =>
          dsimp only at hst ⊢
          by_cases e : m = n
          · subst e
            rw [g1] at hst
            cases hst
            exact .inr ⟨0, by simp, rfl⟩
          · refine .inl ⟨.attr m, by simp [e], ?_⟩
            unfold Heap.step
            simp only [getElem?_set_self' (lt_of_cell hc)]
            rw [lookup_assign_ne (fun e' => e e'.symm)]
            exact hst)
    exact ⟨fp', _, k⟩
  | none =>
    have g1 := rs.none ho
    rw [if_neg (by rw [g1]; simp)]
    obtain ⟨fp', k⟩ := h.change (c := .record cls (vs ++ [(n, x)])) (node := .obj cls (ts ++ [(n, u.1)])) (out := []) (outv := [])
      (entry := fun _ => .attr n) (moved := fun st => (r, p ++ [st]))
      h1 h3 ⟨_, hc, fun _ e => nomatch e⟩ h4 h5 hd nd nr (fun _ e => nomatch e) (by
        intro fo fx ro rx hax
        obtain ⟨-, rfl⟩ := ro.det h6
        cases rx with
        | @cons _ _ fx' _ _ fn rx rn =>
          cases rn
          rw [List.append_nil] at hax ⊢
          refine ⟨a :: (fps ++ fx'), [], .obj (getElem?_set_self' (lt_of_cell hc) _) ((rs.set na _).snoc (rx.set hax _)), .nil, fun b => ?_⟩
          simp only [List.count_cons, List.count_append, List.count_nil]
          omega) (by
        intro m y hm
        unfold Heap.step
        simp only [getElem?_set_self' (lt_of_cell hc)]
        rw [lookup_snoc_self g1]
        cases m with
        | zero => exact hm
        | succ m => simp at hm) (by
        intro st v hst
        unfold Heap.step at hst
        simp only [hc] at hst
        cases st with
        | item => cases hst
        | attr m =>
          refine .inl ⟨.attr m, rfl, ?_⟩
          unfold Heap.step
          simp only [getElem?_set_self' (lt_of_cell hc)]
          exact lookup_snoc_of_some hst)
    exact ⟨fp', _, k⟩

end Genie
