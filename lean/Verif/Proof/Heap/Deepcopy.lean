import Verif.Proof.Heap.Copy
/-! # `copy.deepcopy` is a copy -/

namespace Genie
open HReader ObjTree

theorem hat_none {M : Memo} {a : Nat} (h : M.find a = Option.none) : hat M a = a := by
  unfold hat; rw [h]

/-- What a value refers to directly is met first. -/
theorem Rep.head_mem {H : Heap} {a : Nat} {t : ObjTree} {fp : List Nat} (r : Rep H (.ref a) t fp) : a ∈ fp := by
  obtain ⟨fps, e, _⟩ := r.acyclic
  rw [e]; exact List.mem_cons_self

theorem Complete.hatV {P H : Heap} {M M' : Memo} {f : List Nat} {H0 : Heap} {v : HVal} {t : ObjTree} (r : Rep H0 v t f) (i : CopyInv P H M')
    (le : M.Le M') (c : Complete P M f) : hatV M' v = hatV M v := by
  cases v with
  | ref a =>
    have := List.map_inj_left.1 (c.hat i le) a r.head_mem
    show HVal.ref _ = HVal.ref _
    rw [this]
  | _ => rfl

theorem Complete.hatV_items {P H : Heap} {M M' : Memo} {H0 : Heap} (i : CopyInv P H M') (le : M.Le M') :
    ∀ {vs ts f}, RepItems H0 vs ts f → Complete P M f → vs.map (Genie.hatV M') = vs.map (Genie.hatV M)
  | _, _, _, .nil, _ => rfl
  | _, _, _, .cons r rs, c => by
    rw [List.map_cons, List.map_cons, hatV_items i le rs fun x hx => c x (List.mem_append_right _ hx),
      Complete.hatV r i le fun x hx => c x (List.mem_append_left _ hx)]

/-- An attribute with the copy of its value. -/
def hatA (M : Memo) (x : PyStr × HVal) : PyStr × HVal := (x.1, hatV M x.2)

/-- A tuple whose elements are their own copies is made of tuples only. -/
theorem fixed_items {P H : Heap} {M : Memo} (i : CopyInv P H M) : ∀ {vs ts f}, RepItems P vs ts f → Complete P M f → vs.map (hatV M) = vs →
    ∀ b ∈ f, ¬ P.Mutable b
  | _, _, _, .nil, _, _, _, m => nomatch m
  | _, _, _, .cons (v := v) r rs, c, e, b, m => by
    rw [List.map_cons] at e
    injection e with e1 e2
    rcases List.mem_append.1 m with m | m
    · cases v with
      | ref a =>
        have ha := r.head_mem
        have hn : M.find a = Option.none := by
          cases en : M.find a with
          | none => rfl
          | some w =>
            obtain ⟨hlt, c', e3, hge, _⟩ := i.memo a w en
            subst e3
            have : hat M a = a := by injection e1
            rw [hat_eq_of_find en] at this
            omega
        rcases c a (List.mem_append_left _ ha) with h | ⟨t', f', r', k⟩
        · exact absurd hn h
        · obtain ⟨_, e4⟩ := r'.det r
          subst e4
          exact k b m
      | _ => cases r <;> cases m
    · exact fixed_items i rs (fun x hx => c x (List.mem_append_right _ hx)) e2 b m

theorem Frozen.part {P : Heap} {a : Nat} {t : ObjTree} {f : List Nat} (r : Rep P (.ref a) t f) (k : ∀ b ∈ f, ¬ P.Mutable b) : ∀ x ∈ f, Frozen P x := by
  intro x hx
  obtain ⟨tx, fx, rx, _, sub⟩ := r.within x hx
  exact ⟨tx, fx, rx, fun b hb => k b (sub b hb)⟩

theorem frozen_map {P H : Heap} {M : Memo} (i : CopyInv P H M) {f : List Nat} (k : ∀ x ∈ f, Frozen P x) : f.map (hat M) = f := by
  conv => rhs; rw [← List.map_id f]
  apply List.map_congr_left
  intro x hx
  rw [hat_none (i.frozen x (k x hx))]; rfl

theorem frozen_items {P H : Heap} {M : Memo} (i : CopyInv P H M) : ∀ {vs ts f}, RepItems P vs ts f → (∀ x ∈ f, Frozen P x) → vs.map (hatV M) = vs
  | _, _, _, .nil, _ => rfl
  | _, _, _, .cons (v := v) r rs, k => by
    rw [List.map_cons, frozen_items i rs fun x hx => k x (List.mem_append_right _ hx)]
    cases v with
    | ref a =>
      show HVal.ref (hat M a) :: _ = _
      rw [hat_none (i.frozen a (k a (List.mem_append_left _ r.head_mem)))]
    | _ => rfl

/-- What is known before: everything in the memo that will be met is finished. -/
def Ready (P H : Heap) (M : Memo) (fp : List Nat) : Prop := ∀ b ∈ fp, M.find b ≠ Option.none → Done P H M b

theorem Ready.left {P H : Heap} {M : Memo} {f g : List Nat} (h : Ready P H M (f ++ g)) : Ready P H M f :=
  fun b hb => h b (List.mem_append_left _ hb)

theorem Ready.next {P H H' : Heap} {M M' : Memo} {f g : List Nat} (h : Ready P H M (f ++ g)) (k : Copied P H M f H' M') : Ready P H' M' g := by
  intro b hb hn
  by_cases hm : M.find b = Option.none
  · rcases k.only b hn with h' | h'
    · exact absurd hm h'
    · exact k.done b h' hn
  · exact k.keep hm (h b (List.mem_append_right _ hb) hm)

/-- Inside a new object. -/
theorem Ready.enter {P H : Heap} {M : Memo} {a : Nat} {fps : List Nat} (h : Ready P H M (a :: fps)) (na : a ∉ fps) (hn : M.find a = Option.none)
    {c : Cell} (i : CopyInv P (H ++ [c]) ((a, .ref H.length) :: M)) : Ready P (H ++ [c]) ((a, .ref H.length) :: M) fps := by
  intro b hb hf
  have e : a ≠ b := by rintro rfl; exact na hb
  rw [Memo.find_cons_ne e] at hf
  refine (h b (List.mem_cons_of_mem _ hb) hf).mono i (Memo.le_cons hn) hf fun w t f hw r x hx => ?_
  rw [List.getElem?_append_left]
  exact ((h b (List.mem_cons_of_mem _ hb) hf w t f hw r).2).bound x hx

/-- A tuple that is copied. -/
theorem Copied.tuple {P H : Heap} {M : Memo} {a : Nat} {ts : List ObjTree} {vs : List HVal} {fps : List Nat}
    (ra : Rep P (.ref a) (.tuple ts) (a :: fps)) (hn : M.find a = Option.none) {H' : Heap} {M' : Memo} (k : Copied P H M fps H' M')
    (rs : RepItems H' vs ts (fps.map (hat M'))) (nf : ¬ Frozen P a) :
    Copied P H M (a :: fps) (H' ++ [.tuple vs]) ((a, .ref H'.length) :: M') ∧
      Rep (H' ++ [.tuple vs]) (.ref H'.length) (.tuple ts) ((a :: fps).map (hat ((a, .ref H'.length) :: M'))) := by
  obtain ⟨fps', e, na⟩ := ra.acyclic
  cases e
  have hn' : M'.find a = Option.none := by
    cases e : M'.find a with
    | none => rfl
    | some w =>
      rcases k.only a (by rw [e]; simp) with h | h
      · exact absurd hn h
      · exact absurd h na
  have i := k.inv.enter (ra.bound a List.mem_cons_self) nf (.tuple vs)
  have le := Memo.le_cons (w := .ref H'.length) hn'
  have comp : Complete P ((a, .ref H'.length) :: M') (a :: fps) := by
    intro x hx
    rcases List.mem_cons.1 hx with rfl | hx
    · exact .inl (by rw [Memo.find_cons_self]; simp)
    · exact k.complete.mono le x hx
  have rep : Rep (H' ++ [.tuple vs]) (.ref H'.length) (.tuple ts) ((a :: fps).map (hat ((a, .ref H'.length) :: M'))) := by
    rw [List.map_cons, hat_eq_of_find Memo.find_cons_self, k.complete.hat i le]
    refine .tuple (vs := vs) (by simp) (rs.frame fun x hx => ?_)
    rw [List.getElem?_append_left (rs.bound x hx)]
  refine ⟨⟨i, ?_, fun b hb => ?_, k.le.trans le, fun b hb => ?_, comp, fun b hb hf => ?_⟩, rep⟩
  · have := k.len; simp; omega
  · rw [List.getElem?_append_left (Nat.lt_of_lt_of_le hb k.len)]; exact k.same b hb
  · by_cases e : a = b
    · subst e; exact .inr List.mem_cons_self
    · rw [Memo.find_cons_ne e] at hb
      exact (k.only b hb).imp id (List.mem_cons_of_mem _)
  · by_cases e : a = b
    · subst e
      intro w t f hw r
      obtain ⟨e1, e2⟩ := r.det ra
      subst e1 e2
      rw [Memo.find_cons_self] at hw
      cases hw
      exact ⟨comp, rep⟩
    · have hb' : b ∈ fps := (List.mem_cons.1 hb).resolve_left (Ne.symm e)
      rw [Memo.find_cons_ne e] at hf
      refine (k.done b hb' hf).mono i le hf fun w t f hw r x hx => ?_
      rw [List.getElem?_append_left]
      exact ((k.done b hb' hf w t f hw r).2).bound x hx

/-- A tuple that is not copied. -/
theorem Copied.frozen {P H : Heap} {M : Memo} {a : Nat} {t : ObjTree} {fps : List Nat}
    (ra : Rep P (.ref a) t (a :: fps)) {H' : Heap} {M' : Memo} (k : Copied P H M fps H' M')
    (fr : ∀ b ∈ a :: fps, ¬ P.Mutable b) : Copied P H M (a :: fps) H' M' ∧ hatV M' (.ref a) = .ref a ∧ Rep H' (.ref a) t ((a :: fps).map (hat M')) := by
  have part := Frozen.part ra fr
  have hn' := k.inv.frozen a (part a List.mem_cons_self)
  refine ⟨⟨k.inv, k.len, k.same, k.le, fun b hb => (k.only b hb).imp id (List.mem_cons_of_mem _), fun x hx => .inr (part x hx), fun b hb hf => ?_⟩, ?_, ?_⟩
  · exact absurd (k.inv.frozen b (part b hb)) hf
  · show HVal.ref (hat M' a) = _
    rw [hat_none hn']
  · rw [frozen_map k.inv part]
    exact ra.frame fun x hx => k.inv.same x (ra.bound x hx)

/-- What happens when something is copied. -/
def CopyResult (P H : Heap) (M : Memo) (s : ByteHandler) (fp : List Nat) (depth height : Nat) (out : Py ((α × Memo) × Heap × ByteHandler))
    (good : Heap → Memo → α → Prop) : Prop :=
  (out = .error .recursionError ∧ depth < height) ∨
    ∃ H' M' w, out = .ok ((w, M'), H', s) ∧ Copied P H M fp H' M' ∧ good H' M' w

/-- The items have been copied. -/
def ItemsGood (vs : List HVal) (ts : List ObjTree) (fp : List Nat) (H' : Heap) (M' : Memo) (ws : List HVal) : Prop :=
  ws = vs.map (hatV M') ∧ RepItems H' ws ts (fp.map (hat M'))

/-- The attributes have been copied. -/
def AttrsGood (vs : List (PyStr × HVal)) (ts : List (PyStr × ObjTree)) (fp : List Nat) (H' : Heap) (M' : Memo) (ws : List (PyStr × HVal)) : Prop :=
  ws = vs.map (hatA M') ∧ RepAttrs H' ws ts (fp.map (hat M'))

/-- The value has been copied. -/
def ValueGood (v : HVal) (t : ObjTree) (fp : List Nat) (H' : Heap) (M' : Memo) (w : HVal) : Prop :=
  w = hatV M' v ∧ Rep H' w t (fp.map (hat M'))

theorem Complete.hatV_attrs {P H : Heap} {M M' : Memo} {H0 : Heap} (i : CopyInv P H M') (le : M.Le M') :
    ∀ {vs ts f}, RepAttrs H0 vs ts f → Complete P M f → vs.map (hatA M') = vs.map (hatA M)
  | _, _, _, .nil, _ => rfl
  | _, _, _, .cons r rs, c => by
    rw [List.map_cons, List.map_cons, hatV_attrs i le rs fun x hx => c x (List.mem_append_right _ hx)]
    unfold hatA
    rw [Complete.hatV r i le fun x hx => c x (List.mem_append_left _ hx)]

theorem height_pos (t : ObjTree) : 0 < t.height := by
  cases t <;> simp [ObjTree.height]

theorem deepcopy_scalar (depth : Nat) (v : HVal) (M : Memo) (H : Heap) (s : ByteHandler) (hv : ∀ a, v ≠ .ref a) :
    deepcopy (depth + 1) v M H s = .ok ((v, M), H, s) := by
  cases v with
  | ref a => exact absurd rfl (hv a)
  | _ => rfl

theorem deepcopy_known (depth : Nat) {a : Nat} {w : HVal} {M : Memo} (hm : M.find a = some w) (H : Heap) (s : ByteHandler) :
    deepcopy (depth + 1) (.ref a) M H s = .ok ((w, M), H, s) := by
  unfold deepcopy
  simp only [hm]
  rfl

/-- Fill the new object `y` with what has been copied. -/
def finish (y : Nat) (mk : α → Cell) : Py ((α × Memo) × Heap × ByteHandler) → Py ((HVal × Memo) × Heap × ByteHandler)
  | .error e => .error e
  | .ok ((ws, M'), H', s') => .ok ((.ref y, M'), H'.set y (mk ws), s')

theorem HReader.cell_run {a : Nat} {H : Heap} {c : Cell} (h : H[a]? = some c) (e : PyErr) (s : ByteHandler) : cell (.ref a) e H s = .ok (c, H, s) := by
  unfold cell; simp only [h]

theorem deepcopy_list (depth : Nat) {a : Nat} {M : Memo} {H : Heap} {vs : List HVal} (hm : M.find a = Option.none) (hc : H[a]? = some (.list vs)) (s : ByteHandler) :
    deepcopy (depth + 1) (.ref a) M H s =
      finish H.length (fun ws => .list ws) (copyItems (deepcopy depth) vs ((a, .ref H.length) :: M) (H ++ [.list []]) s) := by
  rw [deepcopy]
  simp only [hm]
  rw [HReader.bind_ok (HReader.cell_run hc _ s)]
  dsimp only
  rw [HReader.bind_ok (show alloc (.list []) H s = .ok (.ref H.length, H ++ [.list []], s) from rfl)]
  cases e : copyItems (deepcopy depth) vs ((a, .ref H.length) :: M) (H ++ [.list []]) s with
  | error x => rw [HReader.bind_error e]; rfl
  | ok x => rw [HReader.bind_ok e]; rfl

theorem deepcopy_obj (depth : Nat) {a : Nat} {M : Memo} {H : Heap} {cls : PyStr} {vs : List (PyStr × HVal)} (hm : M.find a = Option.none)
    (hc : H[a]? = some (.record cls vs)) (s : ByteHandler) :
    deepcopy (depth + 1) (.ref a) M H s =
      finish H.length (fun ws => .record cls ws) (copyAttrs (deepcopy depth) vs ((a, .ref H.length) :: M) (H ++ [.record cls []]) s) := by
  rw [deepcopy]
  simp only [hm]
  rw [HReader.bind_ok (HReader.cell_run hc _ s)]
  dsimp only
  rw [HReader.bind_ok (show alloc (.record cls []) H s = .ok (.ref H.length, H ++ [.record cls []], s) from rfl)]
  cases e : copyAttrs (deepcopy depth) vs ((a, .ref H.length) :: M) (H ++ [.record cls []]) s with
  | error x => rw [HReader.bind_error e]; rfl
  | ok x => rw [HReader.bind_ok e]; rfl

theorem deepcopy_tuple (depth : Nat) {a : Nat} {M : Memo} {H : Heap} {vs : List HVal} (hm : M.find a = Option.none) (hc : H[a]? = some (.tuple vs)) (s : ByteHandler) :
    deepcopy (depth + 1) (.ref a) M H s =
      match copyItems (deepcopy depth) vs M H s with
      | .error e => .error e
      | .ok ((ws, M'), H', s') =>
        match M'.find a with
        | some w => .ok ((w, M'), H', s')
        | Option.none =>
          if ws = vs then .ok ((.ref a, M'), H', s') else .ok ((.ref H'.length, (a, .ref H'.length) :: M'), H' ++ [.tuple ws], s') := by
  rw [deepcopy]
  simp only [hm]
  rw [HReader.bind_ok (HReader.cell_run hc _ s)]
  dsimp only
  cases e : copyItems (deepcopy depth) vs M H s with
  | error x => rw [HReader.bind_error e]
  | ok x =>
    rw [HReader.bind_ok e]
    obtain ⟨⟨ws, M'⟩, H', s'⟩ := x
    dsimp only
    cases M'.find a with
    | some w => rfl
    | none =>
      dsimp only
      by_cases e : ws = vs
      · rw [if_pos e, if_pos e]; rfl
      · rw [if_neg e, if_neg e]; rfl

theorem copyItems_cons (rec : HVal → Memo → HReader (HVal × Memo)) (v : HVal) (vs : List HVal) (M : Memo) (H : Heap) (s : ByteHandler) :
    copyItems rec (v :: vs) M H s =
      match rec v M H s with
      | .error e => .error e
      | .ok ((w, M'), H', s') =>
        match copyItems rec vs M' H' s' with
        | .error e => .error e
        | .ok ((ws, M''), H'', s'') => .ok ((w :: ws, M''), H'', s'') := by
  rw [copyItems]
  cases e : rec v M H s with
  | error x => rw [HReader.bind_error e]
  | ok x =>
    rw [HReader.bind_ok e]
    obtain ⟨⟨w, M'⟩, H', s'⟩ := x
    dsimp only
    cases e : copyItems rec vs M' H' s' with
    | error x => rw [HReader.bind_error e]
    | ok x => rw [HReader.bind_ok e]; rfl

theorem copyAttrs_cons (rec : HVal → Memo → HReader (HVal × Memo)) (n : PyStr) (v : HVal) (vs : List (PyStr × HVal)) (M : Memo) (H : Heap) (s : ByteHandler) :
    copyAttrs rec ((n, v) :: vs) M H s =
      match rec v M H s with
      | .error e => .error e
      | .ok ((w, M'), H', s') =>
        match copyAttrs rec vs M' H' s' with
        | .error e => .error e
        | .ok ((ws, M''), H'', s'') => .ok (((n, w) :: ws, M''), H'', s'') := by
  rw [copyAttrs]
  cases e : rec v M H s with
  | error x => rw [HReader.bind_error e]
  | ok x =>
    rw [HReader.bind_ok e]
    obtain ⟨⟨w, M'⟩, H', s'⟩ := x
    dsimp only
    cases e : copyAttrs rec vs M' H' s' with
    | error x => rw [HReader.bind_error e]
    | ok x => rw [HReader.bind_ok e]; rfl

theorem CopyResult.known {P H : Heap} {M : Memo} (i : CopyInv P H M) {a : Nat} {t : ObjTree} {fp : List Nat} (ra : Rep P (.ref a) t fp) {w : HVal}
    (hm : M.find a = some w) (rd : Ready P H M fp) (depth : Nat) (s : ByteHandler) :
    CopyResult P H M s fp (depth + 1) t.height (deepcopy (depth + 1) (.ref a) M H s) (ValueGood (.ref a) t fp) := by
  obtain ⟨c, rep⟩ := rd a ra.head_mem (by rw [hm]; simp) w t fp hm ra
  obtain ⟨_, b, e, _⟩ := i.memo a w hm
  subst e
  refine .inr ⟨H, M, _, deepcopy_known depth hm H s, Copied.refl i c rd, ?_, rep⟩
  show _ = HVal.ref (hat M a)
  rw [hat_eq_of_find hm]

theorem CopyResult.container {P H : Heap} {M : Memo} (i : CopyInv P H M) {a : Nat} {t : ObjTree} {fps : List Nat} {c0 : Cell}
    (ra : Rep P (.ref a) t (a :: fps)) (hm : P.Mutable a) (hn : M.find a = Option.none) {s : ByteHandler} {depth height : Nat}
    {inner : Py ((α × Memo) × Heap × ByteHandler)} {good : Heap → Memo → α → Prop} {out : Py ((HVal × Memo) × Heap × ByteHandler)} (mk : α → Cell)
    (ho : out = finish H.length mk inner)
    (k : CopyResult P (H ++ [c0]) ((a, .ref H.length) :: M) s fps depth height inner good)
    (rc : ∀ H' M' ws, good H' M' ws → H.length < H'.length → H.length ∉ fps.map (hat M') →
      Rep (H'.set H.length (mk ws)) (.ref H.length) t (H.length :: fps.map (hat M'))) :
    CopyResult P H M s (a :: fps) (depth + 1) (height + 1) out (ValueGood (.ref a) t (a :: fps)) := by
  rcases k with ⟨e, l⟩ | ⟨H', M', ws, e, k, g⟩
  · exact .inl ⟨by rw [ho, e]; rfl, by omega⟩
  · have hl : H.length < H'.length := by have := k.len; simp at this; omega
    obtain ⟨k', hh, rep⟩ := Copied.container i ra hm hn k (rc H' M' ws g hl)
    refine .inr ⟨_, M', .ref H.length, by rw [ho, e]; rfl, k', ?_, rep⟩
    show _ = HVal.ref (hat M' a)
    rw [hh]

mutual
theorem deepcopy_value {P : Heap} : ∀ {v t fp}, Rep P v t fp → ∀ (depth : Nat) (H : Heap) (M : Memo) (s : ByteHandler), CopyInv P H M → Ready P H M fp →
    CopyResult P H M s fp depth t.height (deepcopy depth v M H s) (ValueGood v t fp)
  | _, t, _, _, 0, _, _, _, _, _ => .inl ⟨rfl, height_pos t⟩
  | _, _, _, .none, d + 1, H, M, s, i, rd => .inr ⟨H, M, _, rfl, Copied.refl i (fun _ h => (nomatch h)) rd, rfl, .none⟩
  | _, _, _, .int x, d + 1, H, M, s, i, rd => .inr ⟨H, M, _, rfl, Copied.refl i (fun _ h => (nomatch h)) rd, rfl, .int x⟩
  | _, _, _, .float x, d + 1, H, M, s, i, rd => .inr ⟨H, M, _, rfl, Copied.refl i (fun _ h => (nomatch h)) rd, rfl, .float x⟩
  | _, _, _, .str x, d + 1, H, M, s, i, rd => .inr ⟨H, M, _, rfl, Copied.refl i (fun _ h => (nomatch h)) rd, rfl, .str x⟩
  | _, _, _, .list (a := a) (vs := vs) (fp := fps) h rs, d + 1, H, M, s, i, rd => by
    have ra := Rep.list h rs
    cases hm : M.find a with
    | some w => exact CopyResult.known i ra hm rd d s
    | none =>
      have mu : P.Mutable a := ⟨_, h, fun _ e => nomatch e⟩
      have lt := ra.bound a List.mem_cons_self
      obtain ⟨_, e, na⟩ := ra.acyclic
      cases e
      have i' := i.enter lt (not_frozen mu) (.list [])
      have hc : H[a]? = some (.list vs) := by rw [i.same a lt]; exact h
      refine CopyResult.container i ra mu hm (fun ws => .list ws) (deepcopy_list d hm hc s) (deepcopy_items rs d _ _ s i' (rd.enter na hm i')) ?_
      rintro H' M' ws ⟨_, g⟩ hl nin
      exact .list (by rw [List.getElem?_set_self hl]) (g.frame fun x hx => List.getElem?_set_ne (by rintro rfl; exact nin hx))
  | _, _, _, .obj (a := a) (cls := cls) (vs := vs) (fp := fps) h rs, d + 1, H, M, s, i, rd => by
    have ra := Rep.obj h rs
    cases hm : M.find a with
    | some w => exact CopyResult.known i ra hm rd d s
    | none =>
      have mu : P.Mutable a := ⟨_, h, fun _ e => nomatch e⟩
      have lt := ra.bound a List.mem_cons_self
      obtain ⟨_, e, na⟩ := ra.acyclic
      cases e
      have i' := i.enter lt (not_frozen mu) (.record cls [])
      have hc : H[a]? = some (.record cls vs) := by rw [i.same a lt]; exact h
      refine CopyResult.container i ra mu hm (fun ws => .record cls ws) (deepcopy_obj d hm hc s) (deepcopy_attrs rs d _ _ s i' (rd.enter na hm i')) ?_
      rintro H' M' ws ⟨_, g⟩ hl nin
      exact .obj (by rw [List.getElem?_set_self hl]) (g.frame fun x hx => List.getElem?_set_ne (by rintro rfl; exact nin hx))
  | _, _, _, .tuple (a := a) (vs := vs) (ts := ts) (fp := fps) h rs, d + 1, H, M, s, i, rd => by
    have ra := Rep.tuple h rs
    cases hm : M.find a with
    | some w => exact CopyResult.known i ra hm rd d s
    | none =>
      have lt := ra.bound a List.mem_cons_self
      have hc : H[a]? = some (.tuple vs) := by rw [i.same a lt]; exact h
      obtain ⟨_, e, na⟩ := ra.acyclic
      cases e
      rw [deepcopy_tuple d hm hc s]
      rcases deepcopy_items rs d H M s i (fun b hb => rd b (List.mem_cons_of_mem _ hb)) with ⟨e, l⟩ | ⟨H', M', ws, e, k, g1, g2⟩
      · rw [e]; exact .inl ⟨rfl, by simp only [ObjTree.height]; omega⟩
      · rw [e]
        dsimp only
        have hn' : M'.find a = Option.none := by
          cases e : M'.find a with
          | none => rfl
          | some w =>
            rcases k.only a (by rw [e]; simp) with h | h
            · exact absurd hm h
            · exact absurd h na
        rw [hn']
        dsimp only
        by_cases ew : ws = vs
        · rw [if_pos ew]
          have fr : ∀ b ∈ a :: fps, ¬ P.Mutable b := by
            intro b hb
            rcases List.mem_cons.1 hb with rfl | hb
            · rintro ⟨c, hc, hne⟩
              rw [h] at hc
              cases hc
              exact hne vs rfl
            · exact fixed_items k.inv rs k.complete (by rw [← g1, ew]) b hb
          obtain ⟨k', hh, rep⟩ := Copied.frozen ra k fr
          exact .inr ⟨H', M', _, rfl, k', hh.symm, rep⟩
        · rw [if_neg ew]
          have nf : ¬ Frozen P a := by
            rintro ⟨t, f, r, kf⟩
            obtain ⟨_, e2⟩ := r.det ra
            subst e2
            have part := Frozen.part ra kf
            exact ew (by rw [g1, frozen_items k.inv rs fun x hx => part x (List.mem_cons_of_mem _ hx)])
          obtain ⟨k', rep⟩ := Copied.tuple ra hm k g2 nf
          refine .inr ⟨_, _, _, rfl, k', ?_, rep⟩
          show _ = HVal.ref (hat _ a)
          rw [hat_eq_of_find Memo.find_cons_self]
theorem deepcopy_items {P : Heap} : ∀ {vs ts fp}, RepItems P vs ts fp → ∀ (depth : Nat) (H : Heap) (M : Memo) (s : ByteHandler), CopyInv P H M →
    Ready P H M fp → CopyResult P H M s fp depth (heightItems ts) (copyItems (deepcopy depth) vs M H s) (ItemsGood vs ts fp)
  | _, _, _, .nil, d, H, M, s, i, rd => .inr ⟨H, M, [], rfl, Copied.refl i (fun _ h => (nomatch h)) rd, rfl, .nil⟩
  | _, _, _, .cons (v := v) (vs := vs) (fp := fp) r rs, d, H, M, s, i, rd => by
    rw [copyItems_cons]
    rcases deepcopy_value r d H M s i rd.left with ⟨e, l⟩ | ⟨H', M', w, e, k, g1, g2⟩
    · rw [e]; exact .inl ⟨rfl, by simp only [ObjTree.heightItems]; omega⟩
    · rw [e]
      dsimp only
      rcases deepcopy_items rs d H' M' s k.inv (rd.next k) with ⟨e, l⟩ | ⟨H'', M'', ws, e, k', g1', g2'⟩
      · rw [e]; exact .inl ⟨rfl, by simp only [ObjTree.heightItems]; omega⟩
      · rw [e]
        refine .inr ⟨H'', M'', w :: ws, rfl, k.append k', ?_, ?_⟩
        · rw [List.map_cons, g1, g1', Complete.hatV r k'.inv k'.le k.complete]
        · rw [List.map_append, k.complete.hat k'.inv k'.le]
          exact .cons (g2.frame fun x hx => k'.same x (g2.bound x hx)) g2'
theorem deepcopy_attrs {P : Heap} : ∀ {vs ts fp}, RepAttrs P vs ts fp → ∀ (depth : Nat) (H : Heap) (M : Memo) (s : ByteHandler), CopyInv P H M →
    Ready P H M fp → CopyResult P H M s fp depth (heightAttrs ts) (copyAttrs (deepcopy depth) vs M H s) (AttrsGood vs ts fp)
  | _, _, _, .nil, d, H, M, s, i, rd => .inr ⟨H, M, [], rfl, Copied.refl i (fun _ h => (nomatch h)) rd, rfl, .nil⟩
  | _, _, _, .cons (n := n) (v := v) (vs := vs) (fp := fp) r rs, d, H, M, s, i, rd => by
    rw [copyAttrs_cons]
    rcases deepcopy_value r d H M s i rd.left with ⟨e, l⟩ | ⟨H', M', w, e, k, g1, g2⟩
    · rw [e]; exact .inl ⟨rfl, by simp only [ObjTree.heightAttrs]; omega⟩
    · rw [e]
      dsimp only
      rcases deepcopy_attrs rs d H' M' s k.inv (rd.next k) with ⟨e, l⟩ | ⟨H'', M'', ws, e, k', g1', g2'⟩
      · rw [e]; exact .inl ⟨rfl, by simp only [ObjTree.heightAttrs]; omega⟩
      · rw [e]
        refine .inr ⟨H'', M'', (n, w) :: ws, rfl, k.append k', ?_, ?_⟩
        · rw [List.map_cons, g1, g1']
          unfold hatA
          rw [Complete.hatV r k'.inv k'.le k.complete]
        · rw [List.map_append, k.complete.hat k'.inv k'.le]
          exact .cons (g2.frame fun x hx => k'.same x (g2.bound x hx)) g2'
end

end Genie
