import Verif.Proof.Heap.ForestOps
/-! # Scripts in memory are scripts on values -/

namespace Genie
open HReader ObjTree

theorem Kept.refl (H fp) : Kept H H fp fp := ⟨Nat.le_refl _, fun _ _ _ => rfl, fun _ h => .inl h⟩

theorem Kept.trans {H H' H'' fp fp' fp''} (h : Kept H H' fp fp') (k : Kept H' H'' fp' fp'') : Kept H H'' fp fp'' := by
  refine ⟨Nat.le_trans h.length k.length, fun b hb hf => ?_, fun b hb => ?_⟩
  · rw [k.same b (Nat.lt_of_lt_of_le hb h.length) fun hm => (h.sub b hm).elim hf fun h => by omega, h.same b hb hf]
  · rcases k.sub b hb with h' | h'
    · exact h.sub b h'
    · exact .inr (Nat.le_trans h.length h')

theorem Kept.set {H fp fp'} {a : Nat} {c : Cell} (ha : a ∈ fp) (sub : ∀ b ∈ fp', b ∈ fp) : Kept H (H.set a c) fp fp' :=
  ⟨by rw [List.length_set]; exact Nat.le_refl _, fun b _ hf => List.getElem?_set_ne fun (e : a = b) => hf (e ▸ ha), fun b hb => .inl (sub b hb)⟩

/-- A new object. -/
theorem Holds.create {H : Heap} {names : List HVal} {F : Forest} {roots : List HVal} {fp : List Nat} (h : Holds ⟨H, names⟩ F roots fp)
    {xs : List HVal} {us : List (ObjTree × Option Nat)} (hd : Handed H roots F.trees fp xs us) (nd : (us.filterMap (·.2)).Nodup) {c : Cell}
    {node : ObjTree} {entry : Nat → PathStep}
    (N : ∀ fx, RepItems (H ++ [c]) xs (us.map (·.1)) fx → Rep (H ++ [c]) (.ref H.length) node (H.length :: fx))
    (E : ∀ m x, xs[m]? = some x → us.filterMap (·.2) ≠ [] → Heap.step (H ++ [c]) (.ref H.length) (entry m) = some x) :
    ∃ roots' fp', (Memory.hand (H ++ [c]) names (.ref H.length)).1 = (F.create node us entry).1 ∧
      Holds (Memory.hand (H ++ [c]) names (.ref H.length)).2 (F.create node us entry).2 roots' fp' ∧ Kept H (H ++ [c]) fp fp' := by
  obtain ⟨rs, own, hl, hn⟩ := h
  dsimp only at rs own hl hn
  have hlen := rs.length
  obtain ⟨fp1, fx, g1, g2, g3, g4⟩ := hd.detach rs (fun _ hb => hb) nd
  have rn := N fx (g2.extend [c])
  have b1 : ∀ b ∈ fp1, b < H.length := g1.bound
  have b2 : ∀ b ∈ fx, b < H.length := g2.bound
  have rs' := (g1.extend [c]).append (.cons rn .nil)
  have old : ∀ {v t f}, Rep H v t f → ∀ q, Heap.follow (H ++ [c]) v q = H.follow v q := fun rv q =>
    follow_frame rv (fun x hx => List.getElem?_append_left (rv.bound x hx)) q
  have hroot : (blank HVal.none roots (us.filterMap (·.2)) ++ [.ref H.length])[F.trees.length]? = some (.ref H.length) := by
    rw [List.getElem?_append_right (by rw [blank_length, hlen]; exact Nat.le_refl _), blank_length, hlen, Nat.sub_self]
    rfl
  have whole : Holds ⟨H ++ [c], names⟩
      { trees := Forest.without F.trees (us.filterMap (·.2)) ++ [node]
        spots := F.spots.map fun q =>
          match us.findIdx? (fun u => u.2 == some q.1) with
          | some m => (F.trees.length, entry m :: q.2)
          | Option.none => q }
      (blank .none roots (us.filterMap (·.2)) ++ [.ref H.length]) (fp1 ++ ((H.length :: fx) ++ [])) := by
    refine ⟨rs', fun b hb => ?_, by simp [hl], fun k r q hq => ?_⟩
    · dsimp only at hb
      simp only [List.count_append, List.count_cons, List.append_nil]
      by_cases hbn : b < H.length
      · have hb' : H.Mutable b := by
          obtain ⟨c', e, nt⟩ := hb
          rw [List.getElem?_append_left hbn] at e
          exact ⟨c', e, nt⟩
        have := g3 b hb'
        have := own b hb'
        have : (H.length == b) = false := by simp; omega
        simp only [this]
        simp
        omega
      · rw [List.count_eq_zero.2 fun hm => hbn (b1 b hm), List.count_eq_zero.2 fun hm => hbn (b2 b hm)]
        split <;> omega
    · dsimp only at hq ⊢
      rw [List.getElem?_map, Option.map_eq_some_iff] at hq
      obtain ⟨⟨r0, q0⟩, hk, hq2⟩ := hq
      obtain ⟨root0, b, k1, k2, k3⟩ := hn k r0 q0 hk
      dsimp only at hq2
      obtain ⟨t0, f0, rr0, _⟩ := rs.item k1
      cases hi : us.findIdx? (fun u => u.2 == some r0) with
      | none =>
        rw [hi] at hq2
        obtain ⟨rfl, rfl⟩ := Prod.mk.inj hq2
        refine ⟨root0, b, ?_, k2, by rw [old rr0]; exact k3⟩
        rw [List.getElem?_append_left (by rw [blank_length]; exact (List.getElem?_eq_some_iff.1 k1).1), blank_out _ _ _ (find_none hi)]
        exact k1
      | some m =>
        rw [hi] at hq2
        obtain ⟨rfl, rfl⟩ := Prod.mk.inj hq2
        obtain ⟨x, j1, j2, j3⟩ := hd.find hi
        rw [k1] at j2
        obtain rfl := Option.some.inj j2
        refine ⟨_, b, hroot, k2, ?_⟩
        rw [Heap.follow.eq_2, E m _ j1 (List.ne_nil_of_mem j3)]
        exact (old rr0 _).trans k3
  obtain ⟨w1, w2, -, -⟩ := whole.hand (p := []) hroot rfl
  refine ⟨_, _, w1, w2, ⟨by simp, fun b hb _ => List.getElem?_append_left hb, fun b hb => ?_⟩⟩
  simp only [List.append_nil, List.mem_append, List.mem_cons] at hb
  rcases hb with hb | rfl | hb
  · exact .inl (g4 b (.inl hb))
  · exact .inr (Nat.le_refl _)
  · exact .inl (g4 b (.inr hb))

theorem zip_lookup {n : PyStr} : ∀ {ns : List PyStr} {xs : List HVal} {m : Nat} {x : HVal}, ns.Nodup → xs[m]? = some x → ns[m]? = some n → lookup n (ns.zip xs) = some x
  | [], xs, m, x, _, _, h' => by simp at h'
  | k :: ns, [], m, x, _, h, _ => by simp at h
  | k :: ns, y :: xs, 0, x, _, h, h' => by
    simp at h h'
    subst h h'
    simp [lookup]
  | k :: ns, y :: xs, m + 1, x, nd, h, h' => by
    simp only [List.getElem?_cons_succ] at h h'
    have nd' := List.nodup_cons.1 nd
    have hk : k ≠ n := fun e => nd'.1 (e ▸ List.mem_of_getElem? h')
    simp only [List.zip_cons_cons, lookup, if_neg hk]
    exact zip_lookup nd'.2 h h'

theorem RepAttrs.zip {H : Heap} : ∀ {ns : List PyStr} {xs ts fx}, RepItems H xs ts fx → ns.length = xs.length → RepAttrs H (ns.zip xs) (ns.zip ts) fx
  | [], _, _, _, .nil, _ => .nil
  | [], _, _, _, .cons _ _, h => by simp at h
  | n :: ns, _, _, _, .nil, h => by simp at h
  | n :: ns, _, _, _, .cons r rs, h => .cons r (RepAttrs.zip rs (by simpa using h))

/-- What is to be shown of an operation. -/
def OpSim (W : Memory) (fp : List Nat) (out : Py Seen × Memory) (res : Option (Py Seen × Forest)) : Prop :=
  ∀ r F', res = some (r, F') → ∃ roots' fp', out.1 = r ∧ Holds out.2 F' roots' fp' ∧ Kept W.heap out.2.heap fp fp' ∧ W.names <+: out.2.names

theorem OpSim.error {W : Memory} {F : Forest} {roots fp} (h : Holds W F roots fp) {e : PyErr} {out : Py Seen × Memory} (ho : out = (.error e, W)) :
    OpSim W fp out (some (.error e, F)) := by
  subst ho
  rintro r F' ⟨⟩
  exact ⟨roots, fp, rfl, h, .refl _ _, List.prefix_refl _⟩

theorem Memory.op_error {W : Memory} {depth s o e} (h : o.eval depth W.names W.heap s = .error e) : W.op depth s o = (.error e, W) := by
  unfold Memory.op; rw [h]

theorem Memory.op_ok {W : Memory} {depth s o v H s'} (h : o.eval depth W.names W.heap s = .ok (v, H, s')) :
    W.op depth s o = (.ok (Memory.hand H W.names v).1, (Memory.hand H W.names v).2) := by
  unfold Memory.op; rw [h]

/-- What an object is in memory, given its value. -/
theorem Holds.cases {H : Heap} {names : List HVal} {F : Forest} {roots : List HVal} {fp : List Nat} (h : Holds ⟨H, names⟩ F roots fp) (o : Nat) :
    (F.spots[o]? = Option.none ∧ named names o = .none ∧ F.value o = .none) ∨
    ∃ r p root a fu, F.spots[o]? = some (r, p) ∧ named names o = .ref a ∧ roots[r]? = some root ∧ H.follow root p = some (.ref a) ∧
      Rep H (.ref a) (F.value o) fu ∧ (∀ b, fu.count b ≤ fp.count b) := by
  cases e : F.spots[o]? with
  | none => exact .inl ⟨rfl, h.nospot e⟩
  | some rp =>
    obtain ⟨root, a, t, u, fu, h1, h2, h3, h4, h5, h6, h7, h8, -⟩ := h.spot (r := rp.1) (p := rp.2) e
    exact .inr ⟨rp.1, rp.2, root, a, fu, rfl, h2, h1, h3, by rw [h7]; exact h6, h8⟩

theorem cell_none (e : PyErr) (H : Heap) (s : ByteHandler) : cell .none e H s = .error e := rfl

/-- A statement on a list. -/
theorem Holds.listStatement {H : Heap} {names : List HVal} {F : Forest} {roots : List HVal} {fp : List Nat} (h : Holds ⟨H, names⟩ F roots fp)
    (o : Nat) (args : List Arg) (wrong : PyErr) (cut : Nat → Py (Nat × Nat)) (run : HVal → HReader HVal) (s : ByteHandler)
    (good : ∀ n i k, cut n = .ok (i, k) → i ≤ k ∧ k ≤ n)
    (off : run .none H s = .error wrong)
    (list : ∀ a vs, H[a]? = some (.list vs) → match cut vs.length with
      | .error e => run (.ref a) H s = .error e
      | .ok (i, k) => ∃ v, run (.ref a) H s = .ok (v, H.set a (.list (vs.take i ++ args.map (Arg.value names) ++ vs.drop k)), s))
    (other : ∀ a c, H[a]? = some c → (∀ vs, c ≠ .list vs) → run (.ref a) H s = .error wrong) :
    (∀ r F', F.listStatement o args wrong cut = some (r, F') →
      (∃ e, r = .error e ∧ F' = F ∧ run (named names o) H s = .error e) ∨
      (r = .ok .none ∧ ∃ a vs i k roots' fp' v, named names o = .ref a ∧ H[a]? = some (.list vs) ∧ cut vs.length = .ok (i, k) ∧
        run (named names o) H s = .ok (v, H.set a (.list (vs.take i ++ args.map (Arg.value names) ++ vs.drop k)), s) ∧
        Holds ⟨H.set a (.list (vs.take i ++ args.map (Arg.value names) ++ vs.drop k)), names⟩ F' roots' fp' ∧
        (∃ B : List HVal, B.length = F.trees.length ∧ roots' = B ++ (vs.take k).drop i) ∧
        (∀ b ∈ fp', b ∈ fp) ∧ a ∈ fp)) := by
  intro r F' hr
  unfold Forest.listStatement at hr
  rcases h.cases o with ⟨e1, e2, e3⟩ | ⟨r0, p, root, a, fu, e1, e2, e3, e4, e5, e6⟩
  · rw [e1, e3] at hr
    cases hr
    rw [e2]
    exact .inl ⟨_, rfl, rfl, off⟩
  · rw [e1] at hr
    rw [e2]
    cases hv : F.value o with
    | list ts =>
      rw [hv] at hr e5
      obtain ⟨_, vs, fps, e, -, hc, rs⟩ := e5.list_inv
      cases e
      have hl := rs.length
      have run1 := list a vs hc
      rw [hl] at run1
      dsimp only at hr
      cases hcut : cut ts.length with
      | error e =>
        rw [hcut] at hr run1
        cases hr
        exact .inl ⟨_, rfl, rfl, run1⟩
      | ok ik =>
        obtain ⟨i, k⟩ := ik
        rw [hcut] at hr run1
        dsimp only at hr run1
        rw [Option.map_eq_some_iff] at hr
        obtain ⟨us, hus, hr⟩ := hr
        cases hr
        obtain ⟨hd, nd, nr⟩ := h.args hus
        obtain ⟨g1, g2⟩ := good _ _ _ hcut
        obtain ⟨v, run1⟩ := run1
        obtain ⟨fp', k1, k2, k3⟩ := h.splice e1 hv e2 hc g1 g2 hd nd (nr _ rfl)
        exact .inr ⟨rfl, a, vs, i, k, _, fp', v, rfl, hc, by rw [hl]; exact hcut, run1, k1,
          ⟨_, by rw [blank_length]; exact h.1.length, rfl⟩, k2, k3⟩
    | tuple ts =>
      rw [hv] at hr e5
      cases hr
      obtain ⟨_, vs, fps, e, -, hc, rs⟩ := e5.tuple_inv
      cases e
      exact .inl ⟨_, rfl, rfl, other a _ hc fun _ e => nomatch e⟩
    | obj cls ts =>
      rw [hv] at hr e5
      cases hr
      obtain ⟨_, vs, fps, e, -, hc, rs⟩ := e5.obj_inv
      cases e
      exact .inl ⟨_, rfl, rfl, other a _ hc fun _ e => nomatch e⟩
    | none => rw [hv] at e5; cases e5
    | int => rw [hv] at e5; cases e5
    | float => rw [hv] at e5; cases e5
    | str => rw [hv] at e5; cases e5

/-- A statement on a list whose value is `None`. -/
theorem OpSim.statement {H : Heap} {names : List HVal} {F : Forest} {roots : List HVal} {fp : List Nat} (h : Holds ⟨H, names⟩ F roots fp) {depth : Nat}
    {s : ByteHandler} {op : Op} {o : Nat} {args : List Arg} {wrong : PyErr} {cut : Nat → Py (Nat × Nat)} {run : HVal → HReader HVal}
    (he : op.eval depth names = run (named names o))
    (good : ∀ n i k, cut n = .ok (i, k) → i ≤ k ∧ k ≤ n)
    (off : run .none H s = .error wrong)
    (list : ∀ a vs, H[a]? = some (.list vs) → match cut vs.length with
      | .error e => run (.ref a) H s = .error e
      | .ok (i, k) => run (.ref a) H s = .ok (.none, H.set a (.list (vs.take i ++ args.map (Arg.value names) ++ vs.drop k)), s))
    (other : ∀ a c, H[a]? = some c → (∀ vs, c ≠ .list vs) → run (.ref a) H s = .error wrong) :
    OpSim ⟨H, names⟩ fp (Memory.op depth s ⟨H, names⟩ op) (F.listStatement o args wrong cut) := by
  intro r F' hr
  rcases h.listStatement o args wrong cut run s good off (fun a vs hc => by
    have := list a vs hc
    split at this
    · assumption
    · exact ⟨_, this⟩) other r F' hr with ⟨e, rfl, rfl, hrun⟩ | ⟨rfl, a, vs, i, k, roots', fp', v, e1, e2, e3, e4, e5, -, e6, e7⟩
  · rw [Memory.op_error (by rw [he]; exact hrun)]
    exact ⟨roots, fp, rfl, h, .refl _ _, List.prefix_refl _⟩
  · have := list a vs e2
    rw [e3] at this
    rw [e1] at he
    rw [Memory.op_ok (W := ⟨H, names⟩) (by rw [he]; exact this)]
    exact ⟨roots', fp', rfl, e5, .set e7 e6, List.prefix_refl _⟩

theorem element_good {n : Nat} {j : Int} {i k : Nat} (h : element j n = .ok (i, k)) : i ≤ k ∧ k ≤ n := by
  unfold element at h
  cases e : position n j with
  | none => rw [e] at h; cases h
  | some m =>
    rw [e] at h
    cases h
    exact ⟨Nat.le_succ _, position_lt e⟩

theorem RepAttrs.items {H : Heap} : ∀ {vs ts fps}, RepAttrs H vs ts fps → RepItems H (vs.map (·.2)) (ts.map (·.2)) fps ∧ vs.map (·.1) = ts.map (·.1)
  | _, _, _, .nil => ⟨.nil, rfl⟩
  | _, _, _, .cons r rs => ⟨.cons r rs.items.1, by rw [List.map_cons, List.map_cons, rs.items.2]⟩

/-- What cannot change may be at two places. -/
theorem Handed.again {H : Heap} {roots : List HVal} {trees : List ObjTree} {fp : List Nat} : ∀ {xs ts fx}, RepItems H xs ts fx → (∀ b ∈ fx, b ∈ fp) →
    (∀ t ∈ ts, t.immutable = true) → Handed H roots trees fp xs (ts.map fun t => (t, Option.none))
  | _, _, _, .nil, _, _ => .nil
  | _, _, _, .cons r rs, sub, im => .value r (r.immutable (ObjTree.immutable_spec (im _ (List.mem_cons_self ..))))
      (fun b m => sub b (List.mem_append_left _ m))
      (Handed.again rs (fun b m => sub b (List.mem_append_right _ m)) fun t m => im t (List.mem_cons_of_mem _ m))

theorem again_gone (ts : List ObjTree) : (ts.map fun t => (t, (Option.none : Option Nat))).filterMap (·.2) = [] := by
  induction ts with
  | nil => rfl
  | cons t ts ih => exact ih

theorem again_eq {ts : List ObjTree} {us} (h : Forest.again ts = some us) : (∀ t ∈ ts, t.immutable = true) ∧ us = ts.map fun t => (t, Option.none) := by
  unfold Forest.again at h
  split at h
  · next hi => cases h; exact ⟨hi, rfl⟩
  · cases h

/-- Every operation does in memory what it means. -/
theorem Op.sim {W : Memory} {F : Forest} {roots : List HVal} {fp : List Nat} (h : Holds W F roots fp) (depth : Nat) (s : ByteHandler) (op : Op) :
    OpSim W fp (W.op depth s op) (op.onForest depth F) := by
  obtain ⟨H, names⟩ := W
  have same : ∀ {v : HVal} {r p root}, roots[r]? = some root → H.follow root p = some v → ∀ {o : Op}, o.eval depth names H s = .ok (v, H, s) →
      OpSim ⟨H, names⟩ fp (Memory.op depth s ⟨H, names⟩ o) (some (.ok (F.hand (r, p)).1, (F.hand (r, p)).2)) := by
    intro v r p root hr hf o he
    rw [Memory.op_ok (W := ⟨H, names⟩) he]
    obtain ⟨w1, w2, w3, w4⟩ := h.hand hr hf
    rintro _ _ ⟨⟩
    exact ⟨roots, fp, by rw [w1], w2, by rw [w3]; exact .refl _ _, w4⟩
  have scalar : ∀ {i : Int} {o : Op}, o.eval depth names H s = .ok (.int i, H, s) → OpSim ⟨H, names⟩ fp (Memory.op depth s ⟨H, names⟩ o) (some (.ok (.int i), F)) := by
    intro i o he
    rw [Memory.op_ok (W := ⟨H, names⟩) he]
    rintro _ _ ⟨⟩
    exact ⟨roots, fp, rfl, h, .refl _ _, List.prefix_refl _⟩
  cases op with
  | getAttr o n =>
    show OpSim _ _ _ (match F.spots[o]?, (F.value o).step (.attr n) with | some p, .ok _ => _ | _, _ => _)
    rcases h.cases o with ⟨e1, e2, e3⟩ | ⟨r, p, root, a, fu, e1, e2, e3, e4, e5, e6⟩
    · rw [e1]
      exact OpSim.error h (Memory.op_error (by show HReader.getAttr (named names o) n H s = _; rw [e2]; rfl))
    · rw [e1]
      cases hstep : (F.value o).step (.attr n) with
      | error e =>
        have hx : e = .attributeError := by
          cases hv : F.value o <;> rw [hv] at hstep <;> simp only [ObjTree.step] at hstep <;> try cases hstep <;> rfl
          split at hstep <;> cases hstep
          rfl
        subst hx
        have := e5.step_error hstep [] s
        refine OpSim.error h (Memory.op_error ?_)
        show HReader.getAttr (named names o) n H s = _
        rw [e2]
        unfold HReader.eval at this
        cases hg : HReader.getAttr (.ref a) n H s with
        | error e => rw [HReader.bind_error hg] at this; exact this
        | ok r =>
          obtain ⟨w, H', s'⟩ := r
          rw [HReader.bind_ok hg] at this
          cases this
      | ok u =>
        obtain ⟨w, hw, _⟩ := e5.child (ObjTree.step_child.1 hstep)
        have := getAttr_run hw s
        refine same e3 (p := p ++ [.attr n]) (by rw [follow_snoc e4]; exact hw) ?_
        show HReader.getAttr (named names o) n H s = _
        rw [e2]
        exact this
  | getItem o i =>
    unfold Op.onForest
    dsimp only
    rcases h.cases o with ⟨e1, e2, e3⟩ | ⟨r, p, root, a, fu, e1, e2, e3, e4, e5, e6⟩
    · rw [e1, e3]
      exact OpSim.error h (Memory.op_error (by show HReader.getItemAt (named names o) i H s = _; rw [e2]; rfl))
    · rw [e1]
      cases hv : F.value o with
      | none => rw [hv] at e5; cases e5
      | int => rw [hv] at e5; cases e5
      | float => rw [hv] at e5; cases e5
      | str => rw [hv] at e5; cases e5
      | obj cls ts =>
        rw [hv] at e5
        obtain ⟨_, vs, fps, e, -, hc, rs⟩ := e5.obj_inv
        cases e
        refine OpSim.error h (Memory.op_error ?_)
        show HReader.getItemAt (named names o) i H s = _
        rw [e2]
        unfold HReader.getItemAt
        rw [HReader.bind_ok (cell_run hc _ s)]
        rfl
      | list ts =>
        rw [hv] at e5
        obtain ⟨_, vs, fps, e, -, hc, rs⟩ := e5.list_inv
        cases e
        have hrun : HReader.getItemAt (.ref a) i H s = match pyIndex vs.length i with
            | Option.none => .error .indexError
            | some j => match vs[j]? with
              | some v => .ok (v, H, s)
              | Option.none => .error .indexError := by
          unfold HReader.getItemAt
          rw [HReader.bind_ok (cell_run hc _ s)]
          dsimp only
          cases pyIndex vs.length i with
          | none => rfl
          | some j =>
            dsimp only
            cases vs[j]? <;> rfl
        rw [pyIndex_eq, rs.length] at hrun
        dsimp only
        cases hp : position ts.length i with
        | none =>
          rw [hp] at hrun
          exact OpSim.error h (Memory.op_error (by show HReader.getItemAt (named names o) i H s = _; rw [e2]; exact hrun))
        | some j =>
          rw [hp] at hrun
          have hj : j < vs.length := by rw [rs.length]; exact position_lt hp
          dsimp only at hrun
          rw [List.getElem?_eq_getElem hj] at hrun
          refine same e3 (p := p ++ [.item j]) (v := vs[j]) (o := .getItem o i) ?_ (by show HReader.getItemAt (named names o) i H s = _; rw [e2]; exact hrun)
          rw [follow_snoc e4]
          unfold Heap.step
          simp only [hc]
          exact List.getElem?_eq_getElem hj
      | tuple ts =>
        rw [hv] at e5
        obtain ⟨_, vs, fps, e, -, hc, rs⟩ := e5.tuple_inv
        cases e
        have hrun : HReader.getItemAt (.ref a) i H s = match pyIndex vs.length i with
            | Option.none => .error .indexError
            | some j => match vs[j]? with
              | some v => .ok (v, H, s)
              | Option.none => .error .indexError := by
          unfold HReader.getItemAt
          rw [HReader.bind_ok (cell_run hc _ s)]
          dsimp only
          cases pyIndex vs.length i with
          | none => rfl
          | some j =>
            dsimp only
            cases vs[j]? <;> rfl
        rw [pyIndex_eq, rs.length] at hrun
        dsimp only
        cases hp : position ts.length i with
        | none =>
          rw [hp] at hrun
          exact OpSim.error h (Memory.op_error (by show HReader.getItemAt (named names o) i H s = _; rw [e2]; exact hrun))
        | some j =>
          rw [hp] at hrun
          have hj : j < vs.length := by rw [rs.length]; exact position_lt hp
          dsimp only at hrun
          rw [List.getElem?_eq_getElem hj] at hrun
          refine same e3 (p := p ++ [.item j]) (v := vs[j]) (o := .getItem o i) ?_ (by show HReader.getItemAt (named names o) i H s = _; rw [e2]; exact hrun)
          rw [follow_snoc e4]
          unfold Heap.step
          simp only [hc]
          exact List.getElem?_eq_getElem hj
  | len o =>
    unfold Op.onForest
    dsimp only
    have run : ∀ {c : Cell} {a : Nat}, named names o = .ref a → H[a]? = some c → (Op.len o).eval depth names H s =
        match c with | .list vs | .tuple vs => .ok (.int vs.length, H, s) | .record _ _ => .error .typeError := by
      intro c a e2 hc
      unfold Op.eval
      dsimp only
      rw [e2]
      have : HReader.len (.ref a) H s = match c with | .list vs | .tuple vs => .ok (vs.length, H, s) | .record _ _ => .error .typeError := by
        unfold HReader.len
        rw [HReader.bind_ok (cell_run hc _ s)]
        cases c <;> rfl
      rw [HReader.bind_eq, this]
      cases c <;> rfl
    rcases h.cases o with ⟨e1, e2, e3⟩ | ⟨r, p, root, a, fu, e1, e2, e3, e4, e5, e6⟩
    · rw [e3]
      exact OpSim.error h (Memory.op_error (by show (HReader.len (named names o) >>= _) H s = _; rw [e2]; rfl))
    · cases hv : F.value o with
      | none => rw [hv] at e5; cases e5
      | int => rw [hv] at e5; cases e5
      | float => rw [hv] at e5; cases e5
      | str => rw [hv] at e5; cases e5
      | obj cls ts =>
        rw [hv] at e5
        obtain ⟨_, vs, fps, e, -, hc, rs⟩ := e5.obj_inv
        cases e
        exact OpSim.error h (Memory.op_error (run e2 hc))
      | list ts =>
        rw [hv] at e5
        obtain ⟨_, vs, fps, e, -, hc, rs⟩ := e5.list_inv
        cases e
        have := run e2 hc
        dsimp only at this
        rw [rs.length] at this
        exact scalar this
      | tuple ts =>
        rw [hv] at e5
        obtain ⟨_, vs, fps, e, -, hc, rs⟩ := e5.tuple_inv
        cases e
        have := run e2 hc
        dsimp only at this
        rw [rs.length] at this
        exact scalar this
  | same o o' =>
    unfold Op.onForest
    dsimp only
    have run : (Op.same o o').eval depth names H s = .ok (.int (if named names o = named names o' then 1 else 0), H, s) := rfl
    have hsim := scalar run
    by_cases hsp : F.spots[o]? = F.spots[o']?
    · rw [if_pos hsp]
      have : named names o = named names o' := by
        rcases h.cases o with ⟨e1, e2, e3⟩ | ⟨r, p, root, a, fu, e1, e2, e3, e4, e5, e6⟩
        · rw [e2, (h.nospot (hsp ▸ e1)).1]
        · obtain ⟨root', a', t, u, fu', h1, h2, h3, -⟩ := h.spot (hsp ▸ e1)
          rw [e3] at h1
          obtain rfl := Option.some.inj h1
          rw [e4] at h3
          obtain h3 := Option.some.inj h3
          rw [e2, h2, h3]
      rw [if_pos this] at hsim
      exact hsim
    · rw [if_neg hsp]
      have key : (∀ ts ts', ¬ (F.value o = .tuple ts ∧ F.value o' = .tuple ts')) → named names o ≠ named names o' := by
        intro nt heq
        rcases h.cases o with ⟨e1, e2, e3⟩ | ⟨r, p, root, a, fu, e1, e2, e3, e4, e5, e6⟩
        · rcases h.cases o' with ⟨k1, k2, k3⟩ | ⟨r', p', root', a', fu', k1, k2, k3, k4, k5, k6⟩
          · exact hsp (by rw [e1, k1])
          · rw [e2, k2] at heq; cases heq
        · rcases h.cases o' with ⟨k1, k2, k3⟩ | ⟨r', p', root', a', fu', k1, k2, k3, k4, k5, k6⟩
          · rw [e2, k2] at heq; cases heq
          · rw [e2, k2] at heq
            cases heq
            obtain ⟨et, -⟩ := e5.det k5
            have hm : H.Mutable a := e5.mutable_iff.2 fun ts hts => nt ts ts ⟨hts, et ▸ hts⟩
            have c1 := h.2.1 a hm
            by_cases hr : r = r'
            · subst hr
              rw [e3] at k3
              obtain rfl := Option.some.inj k3
              obtain ⟨t0, f0, rr0, sub0⟩ := h.1.item e3
              have := rr0.follow_once (Nat.le_trans (sub0.count_le a) c1) e4 k4
              exact hsp (by rw [e1, k1, this])
            · obtain ⟨w1, f1, w2, f2, ra1, ra2, cc⟩ := h.1.apart e3 k3 hr
              have h1 := List.count_pos_iff.2 (ra1.follow_mem e4)
              have h2 := List.count_pos_iff.2 (ra2.follow_mem k4)
              have := cc a
              omega
      split
      · intro r F' hr; cases hr
      · next nt =>
        rw [if_neg (key fun ts ts' hh => nt ts ts' hh.1 hh.2)] at hsim
        exact hsim
  | setAttr o n v =>
    unfold Op.onForest
    dsimp only
    rcases h.cases o with ⟨e1, e2, e3⟩ | ⟨r, p, root, a, fu, e1, e2, e3, e4, e5, e6⟩
    · rw [e1, e3]
      exact OpSim.error h (Memory.op_error (by show (HReader.setAttr (named names o) n (v.value names) >>= _) H s = _; rw [e2]; rfl))
    · rw [e1]
      have bad : ∀ {c : Cell}, H[a]? = some c → (∀ cls vs, c ≠ .record cls vs) → (Op.setAttr o n v).eval depth names H s = .error .attributeError := by
        intro c hc nt
        unfold Op.eval
        dsimp only
        rw [e2]
        apply HReader.bind_error
        unfold HReader.setAttr
        rw [HReader.bind_ok (cell_run hc _ s)]
        cases c with
        | record cls vs => exact absurd rfl (nt cls vs)
        | _ => rfl
      cases hv : F.value o with
      | none => rw [hv] at e5; cases e5
      | int => rw [hv] at e5; cases e5
      | float => rw [hv] at e5; cases e5
      | str => rw [hv] at e5; cases e5
      | list ts =>
        rw [hv] at e5
        obtain ⟨_, vs, fps, e, -, hc, rs⟩ := e5.list_inv
        cases e
        exact OpSim.error h (Memory.op_error (bad hc fun _ _ e => nomatch e))
      | tuple ts =>
        rw [hv] at e5
        obtain ⟨_, vs, fps, e, -, hc, rs⟩ := e5.tuple_inv
        cases e
        exact OpSim.error h (Memory.op_error (bad hc fun _ _ e => nomatch e))
      | obj cls ts =>
        rw [hv] at e5
        obtain ⟨_, vs, fps, e, -, hc, rs⟩ := e5.obj_inv
        cases e
        have hlook : (lookup n vs).isSome = (attrOf n ts).isSome := by
          cases ho : attrOf n ts with
          | none => rw [rs.none ho]; rfl
          | some u =>
            obtain ⟨w0, fw, A, B, g1, _⟩ := rs.hole ho
            rw [g1]
            rfl
        have hrun : HReader.setAttr (.ref a) n (v.value names) H s =
            if (attrOf n ts).isNone && ofClass n then .error .attributeError
            else .ok ((), H.set a (.record cls (if (lookup n vs).isSome then HReader.assign n (v.value names) vs else vs ++ [(n, v.value names)])), s) := by
          unfold HReader.setAttr
          rw [HReader.bind_ok (cell_run hc _ s)]
          dsimp only
          cases hl : lookup n vs with
          | some w =>
            rw [hl] at hlook
            cases ho : attrOf n ts with
            | none => rw [ho] at hlook; cases hlook
            | some u => rfl
          | none =>
            rw [hl] at hlook
            cases ho : attrOf n ts with
            | some u => rw [ho] at hlook; cases hlook
            | none =>
              dsimp only
              cases ofClass n <;> rfl
        dsimp only
        by_cases hb : ((attrOf n ts).isNone && ofClass n) = true
        · rw [if_pos hb] at hrun ⊢
          refine OpSim.error h (Memory.op_error ?_)
          show (HReader.setAttr (named names o) n (v.value names) >>= _) H s = _
          rw [e2]
          exact HReader.bind_error hrun
        · rw [if_neg hb] at hrun ⊢
          intro res F' hres
          split at hres
          · next u hus =>
            cases hres
            obtain ⟨hd, nd, nr⟩ := h.args hus
            obtain ⟨fp', roots', k1, k2, k3⟩ := h.assign (n := n) e1 hv e2 hc hd (nr _ rfl)
            have he : (Op.setAttr o n v).eval depth names H s = .ok (.none, H.set a (.record cls (if (lookup n vs).isSome then HReader.assign n (v.value names) vs else vs ++ [(n, v.value names)])), s) := by
              show (HReader.setAttr (named names o) n (v.value names) >>= _) H s = _
              rw [e2, HReader.bind_ok hrun]
              rfl
            rw [Memory.op_ok (W := ⟨H, names⟩) he]
            exact ⟨roots', fp', rfl, k1, .set k3 k2, List.prefix_refl _⟩
          · cases hres
  | setItem o i v =>
    refine OpSim.statement h (run := fun o => HReader.setItemAt o i (v.value names)) rfl (fun _ _ _ => element_good) rfl (fun a vs hc => ?_) fun a c hc nt => ?_
    · have hrun : HReader.setItemAt (.ref a) i (v.value names) H s = match pyIndex vs.length i with
          | Option.none => .error .indexError
          | some j => .ok (.none, H.set a (.list (vs.set j (v.value names))), s) := by
        unfold HReader.setItemAt
        rw [HReader.bind_ok (cell_run hc _ s)]
        dsimp only
        cases pyIndex vs.length i <;> rfl
      rw [pyIndex_eq] at hrun
      unfold element
      cases hp : position vs.length i with
      | none => rw [hp] at hrun; exact hrun
      | some j =>
        rw [hp] at hrun
        dsimp only at hrun ⊢
        rw [List.set_eq_take_append_cons_drop (l := vs), if_pos (position_lt hp)] at hrun
        simpa using hrun
    · unfold HReader.setItemAt
      rw [HReader.bind_ok (cell_run hc _ s)]
      cases c with
      | list vs => exact absurd rfl (nt vs)
      | _ => rfl
  | append o v =>
    refine OpSim.statement (cut := fun n => .ok (n, n)) h (run := fun o => do HReader.append o (v.value names); return .none) rfl (fun n i k e => by cases e; exact ⟨Nat.le_refl _, Nat.le_refl _⟩) rfl
      (fun a vs hc => ?_) fun a c hc nt => ?_
    · have : HReader.append (.ref a) (v.value names) H s = .ok ((), H.set a (.list (vs ++ [v.value names])), s) := by
        unfold HReader.append
        rw [HReader.bind_ok (cell_run hc _ s)]
        rfl
      dsimp only
      rw [HReader.bind_ok this]
      simp only [List.take_length, List.drop_length, List.append_nil, List.map_cons, List.map_nil]
      rfl
    · apply HReader.bind_error
      unfold HReader.append
      rw [HReader.bind_ok (cell_run hc _ s)]
      cases c with
      | list vs => exact absurd rfl (nt vs)
      | _ => rfl
  | insert o i v =>
    refine OpSim.statement (cut := fun n => .ok (bound n i, bound n i)) h (run := fun o => HReader.insertAt o i (v.value names)) rfl (fun n j k e => by cases e; exact ⟨Nat.le_refl _, bound_le _ _⟩) rfl
      (fun a vs hc => ?_) fun a c hc nt => ?_
    · dsimp only
      unfold HReader.insertAt
      rw [HReader.bind_ok (cell_run hc _ s)]
      dsimp only
      rw [pyBound_eq]
      simp only [List.map_cons, List.map_nil, List.append_assoc, List.singleton_append]
      rfl
    · unfold HReader.insertAt
      rw [HReader.bind_ok (cell_run hc _ s)]
      cases c with
      | list vs => exact absurd rfl (nt vs)
      | _ => rfl
  | pop o i =>
    have run : ∀ a vs, H[a]? = some (.list vs) → match element i vs.length with
        | .error e => HReader.popAt (.ref a) i H s = .error e
        | .ok (j, k) => ∃ v, vs[j]? = some v ∧ HReader.popAt (.ref a) i H s = .ok (v, H.set a (.list (vs.take j ++ ([] : List Arg).map (Arg.value names) ++ vs.drop k)), s) := by
      intro a vs hc
      have hrun : HReader.popAt (.ref a) i H s = match pyIndex vs.length i with
          | Option.none => .error .indexError
          | some j => match vs[j]? with
            | some v => .ok (v, H.set a (.list (vs.eraseIdx j)), s)
            | Option.none => .error .indexError := by
        unfold HReader.popAt
        rw [HReader.bind_ok (cell_run hc _ s)]
        dsimp only
        cases pyIndex vs.length i with
        | none => rfl
        | some j =>
          dsimp only
          cases vs[j]? <;> rfl
      rw [pyIndex_eq] at hrun
      unfold element
      cases hp : position vs.length i with
      | none => rw [hp] at hrun; exact hrun
      | some j =>
        rw [hp] at hrun
        have hj := position_lt hp
        dsimp only at hrun ⊢
        rw [List.getElem?_eq_getElem hj] at hrun ⊢
        refine ⟨_, rfl, ?_⟩
        rw [hrun, List.eraseIdx_eq_take_drop_succ]
        simp
    show OpSim _ _ _ (match F.listStatement o [] .attributeError (element i) with
      | some (.ok _, F') => some (.ok (F'.hand (F.trees.length, [])).1, (F'.hand (F.trees.length, [])).2)
      | x => x)
    intro res F' hres
    cases hst : F.listStatement o [] .attributeError (element i) with
    | none => rw [hst] at hres; cases hres
    | some rf =>
      obtain ⟨r1, F1⟩ := rf
      rcases h.listStatement o [] .attributeError (element i) (fun o => HReader.popAt o i) s (fun _ _ _ => element_good) rfl (fun a vs hc => by
          have := run a vs hc
          split at this
          · assumption
          · obtain ⟨v, -, this⟩ := this; exact ⟨v, this⟩) (fun a c hc nt => by
          unfold HReader.popAt
          rw [HReader.bind_ok (cell_run hc _ s)]
          cases c with
          | list vs => exact absurd rfl (nt vs)
          | _ => rfl) r1 F1 hst with ⟨e, rfl, rfl, hrun⟩ | ⟨rfl, a, vs, j, k, roots', fp', v, e1, e2, e3, e4, e5, ⟨B, eB, rfl⟩, e6, e7⟩
      · rw [hst] at hres
        cases hres
        rw [Memory.op_error (W := ⟨H, names⟩) (o := .pop o i) hrun]
        exact ⟨roots, fp, rfl, h, .refl _ _, List.prefix_refl _⟩
      · rw [hst] at hres
        cases hres
        have hr := run a vs e2
        rw [e3] at hr
        obtain ⟨w, hw, hr⟩ := hr
        have hjk := element_good e3
        have hk : k = j + 1 := by
          unfold element at e3
          cases hp : position vs.length i with
          | none => rw [hp] at e3; cases e3
          | some m => rw [hp] at e3; cases e3; rfl
        have hroot : (B ++ (vs.take k).drop j)[F.trees.length]? = some w := by
          rw [List.getElem?_append_right (by omega), eB, Nat.sub_self, List.getElem?_drop, List.getElem?_take, if_pos (by omega)]
          exact hw
        have he : (Op.pop o i).eval depth names H s = .ok (w, H.set a (.list (vs.take j ++ ([] : List Arg).map (Arg.value names) ++ vs.drop k)), s) := by
          show HReader.popAt (named names o) i H s = _
          rw [e1]
          exact hr
        rw [Memory.op_ok (W := ⟨H, names⟩) he]
        obtain ⟨w1, w2, w3, w4⟩ := e5.hand (p := []) hroot rfl
        exact ⟨_, fp', by rw [w1], w2, by rw [w3]; exact .set e7 e6, w4⟩
  | delItem o i =>
    refine OpSim.statement h (run := fun o => HReader.delItemAt o i) rfl (fun _ _ _ => element_good) rfl (fun a vs hc => ?_) fun a c hc nt => ?_
    · have hrun : HReader.delItemAt (.ref a) i H s = match pyIndex vs.length i with
          | Option.none => .error .indexError
          | some j => .ok (.none, H.set a (.list (vs.eraseIdx j)), s) := by
        unfold HReader.delItemAt
        rw [HReader.bind_ok (cell_run hc _ s)]
        dsimp only
        cases pyIndex vs.length i <;> rfl
      rw [pyIndex_eq] at hrun
      unfold element
      cases hp : position vs.length i with
      | none => rw [hp] at hrun; exact hrun
      | some j =>
        rw [hp] at hrun
        dsimp only at hrun ⊢
        rw [List.eraseIdx_eq_take_drop_succ] at hrun
        simpa using hrun
    · unfold HReader.delItemAt
      rw [HReader.bind_ok (cell_run hc _ s)]
      cases c with
      | list vs => exact absurd rfl (nt vs)
      | _ => rfl
  | delSlice o i j =>
    refine OpSim.statement (cut := fun n => .ok (bound n i, max (bound n i) (bound n j))) h (run := fun o => HReader.delSliceAt o i j) rfl (fun n a b e => by
        cases e; exact ⟨Nat.le_max_left _ _, Nat.max_le.2 ⟨bound_le _ _, bound_le _ _⟩⟩) rfl (fun a vs hc => ?_) fun a c hc nt => ?_
    · dsimp only
      unfold HReader.delSliceAt
      rw [HReader.bind_ok (cell_run hc _ s)]
      dsimp only
      rw [pyBound_eq, pyBound_eq]
      simp only [List.map_nil, List.append_nil]
      rfl
    · unfold HReader.delSliceAt
      rw [HReader.bind_ok (cell_run hc _ s)]
      cases c with
      | list vs => exact absurd rfl (nt vs)
      | _ => rfl
  | newList vs =>
    intro res F' hres
    unfold Op.onForest at hres
    dsimp only at hres
    rw [Option.map_eq_some_iff] at hres
    obtain ⟨us, hus, hres⟩ := hres
    cases hres
    obtain ⟨hd, nd, -⟩ := h.args hus
    obtain ⟨roots', fp', k1, k2, k3⟩ := h.create (c := .list (vs.map (Arg.value names))) (node := .list (us.map (·.1))) (entry := .item) hd nd
      (fun fx rx => .list (by simp) rx) (fun m x hm _ => by unfold Heap.step; simpa using hm)
    rw [Memory.op_ok (W := ⟨H, names⟩) (v := .ref H.length) (H := H ++ [.list (vs.map (Arg.value names))]) (s' := s) rfl]
    exact ⟨roots', fp', by rw [k1], k2, k3, List.prefix_append _ _⟩
  | newTuple vs =>
    intro res F' hres
    unfold Op.onForest at hres
    dsimp only at hres
    rw [Option.map_eq_some_iff] at hres
    obtain ⟨us, hus, hres⟩ := hres
    cases hres
    obtain ⟨hd, nd, -⟩ := h.args hus
    obtain ⟨roots', fp', k1, k2, k3⟩ := h.create (c := .tuple (vs.map (Arg.value names))) (node := .tuple (us.map (·.1))) (entry := .item) hd nd
      (fun fx rx => .tuple (by simp) rx) (fun m x hm _ => by unfold Heap.step; simpa using hm)
    rw [Memory.op_ok (W := ⟨H, names⟩) (v := .ref H.length) (H := H ++ [.tuple (vs.map (Arg.value names))]) (s' := s) rfl]
    exact ⟨roots', fp', by rw [k1], k2, k3, List.prefix_append _ _⟩
  | new cls vs =>
    intro res F' hres
    unfold Op.onForest at hres
    dsimp only at hres
    split at hres
    · next ndn =>
      rw [Option.map_eq_some_iff] at hres
      obtain ⟨us, hus, hres⟩ := hres
      cases hres
      obtain ⟨hd, nd, -⟩ := h.args hus
      have hzip : (vs.map fun (n, v) => (n, v.value names)) = (vs.map (·.1)).zip ((vs.map (·.2)).map (Arg.value names)) := by
        rw [List.map_map, List.zip_map']
        rfl
      have hlen0 : (vs.map (·.1)).length = ((vs.map (·.2)).map (Arg.value names)).length := by simp
      have hrun : (Op.new cls vs).eval depth names H s = .ok (.ref H.length, H ++ [.record cls ((vs.map (·.1)).zip ((vs.map (·.2)).map (Arg.value names)))], s) := by
        rw [← hzip]; rfl
      obtain ⟨roots', fp', k1, k2, k3⟩ := h.create (c := .record cls ((vs.map (·.1)).zip ((vs.map (·.2)).map (Arg.value names))))
        (node := .obj cls ((vs.map (·.1)).zip (us.map (·.1)))) (entry := fun m => .attr ((vs.map (·.1)).getD m [])) hd nd
        (fun fx rx => .obj (List.getElem?_concat_length) (RepAttrs.zip rx hlen0)) (fun m x hm _ => by
          unfold Heap.step
          simp only [List.getElem?_concat_length]
          have hlt : m < (vs.map (·.1)).length := by rw [hlen0]; exact (List.getElem?_eq_some_iff.1 hm).1
          refine zip_lookup ndn hm ?_
          rw [List.getD_eq_getElem?_getD, List.getElem?_eq_getElem hlt]
          rfl)
      rw [Memory.op_ok (W := ⟨H, names⟩) hrun]
      exact ⟨roots', fp', by rw [k1], k2, k3, List.prefix_append _ _⟩
    · cases hres
  | deepcopy o =>
    unfold Op.onForest
    dsimp only
    obtain ⟨v, fu, hv, ru, cu⟩ : ∃ v fu, named names o = v ∧ Rep H v (F.value o) fu ∧ ∀ b, fu.count b ≤ fp.count b := by
      rcases h.cases o with ⟨e1, e2, e3⟩ | ⟨r, p, root, a, fu, e1, e2, e3, e4, e5, e6⟩
      · exact ⟨_, [], e2, by rw [e3]; exact .none, fun b => by simp⟩
      · exact ⟨_, fu, e2, e5, e6⟩
    have own : Owned H fu := fun a ha => Nat.le_trans (cu a) (h.2.1 a ha)
    by_cases hh : (F.value o).height ≤ depth
    · rw [if_pos hh]
      rcases deepcopy_run ru depth s with ⟨-, hlt⟩ | ⟨H', M, w, κ, e, len, sm, rw', inj, new, old, part⟩
      · exact absurd hlt (by omega)
      · have he : (Op.deepcopy o).eval depth names H s = .ok (w, H', s) := by
          show (HReader.deepcopy depth (named names o) [] >>= _) H s = _
          rw [hv, HReader.bind_ok e]
          rfl
        rw [Memory.op_ok (W := ⟨H, names⟩) he]
        obtain ⟨rs, own0, hl, hn⟩ := h
        dsimp only at rs own0 hl hn
        have hlen := rs.length
        have whole : Holds ⟨H', names⟩ { F with trees := F.trees ++ [F.value o] } (roots ++ [w]) (fp ++ (fu.map κ ++ [])) := by
          refine ⟨(rs.frame fun a ha => sm a (rs.bound a ha)).append (.cons rw' .nil), fun b hb => ?_, hl, fun k r q hq => ?_⟩
          · dsimp only at hb
            simp only [List.append_nil, List.count_append]
            by_cases hbn : b < H.length
            · have hb' := (mutable_same sm hbn).1 hb
              have h0 : (fu.map κ).count b = 0 := by
                refine List.count_eq_zero.2 fun hm => ?_
                obtain ⟨x, hx, rfl⟩ := List.mem_map.1 hm
                rcases old x hx with hxx | hxx
                · rw [hxx] at hb'
                  have := new x hx hb'
                  omega
                · omega
              have := own0 b hb'
              omega
            · have h0 : fp.count b = 0 := List.count_eq_zero.2 fun hm => hbn (rs.bound b hm)
              rw [h0, Nat.zero_add]
              by_cases hm : b ∈ fu.map κ
              · obtain ⟨x, hx, rfl⟩ := List.mem_map.1 hm
                rw [count_map_inj fun y hy e => inj y hy x hx e]
                have hxl := ru.bound x hx
                -- the original is an object that can change, so it occurs once
                refine own x ?_
                obtain ⟨tx, fx, rx, _⟩ := ru.within x hx
                have := Rep.mutable_iff (part x hx tx fx rx)
                exact (rx.mutable_iff).2 (this.1 hb)
              · rw [List.count_eq_zero.2 hm]
                omega
          · obtain ⟨root0, b, k1, k2, k3⟩ := hn k r q hq
            obtain ⟨t0, f0, rr0, _⟩ := rs.item k1
            exact ⟨root0, b, by rw [List.getElem?_append_left (List.getElem?_eq_some_iff.1 k1).1]; exact k1, k2, by
              show Heap.follow H' root0 q = _
              rw [follow_frame rr0 fun x hx => sm x (rr0.bound x hx)]; exact k3⟩
        have hroot : (roots ++ [w])[F.trees.length]? = some w := by rw [← hlen]; simp
        obtain ⟨w1, w2, w3, w4⟩ := whole.hand (p := []) hroot rfl
        rintro _ _ ⟨⟩
        refine ⟨_, _, by rw [w1], w2, ?_, w4⟩
        rw [w3]
        refine ⟨len, fun b hb _ => sm b hb, fun b hb => ?_⟩
        simp only [List.append_nil, List.mem_append] at hb
        rcases hb with hb | hb
        · exact .inl hb
        · obtain ⟨x, hx, rfl⟩ := List.mem_map.1 hb
          rcases old x hx with hxx | hxx
          · rw [hxx]
            exact .inl (List.count_pos_iff.1 (Nat.lt_of_lt_of_le (List.count_pos_iff.2 hx) (cu x)))
          · exact .inr hxx
    · rw [if_neg hh]
      refine OpSim.error h (Memory.op_error ?_)
      show (HReader.deepcopy depth (named names o) [] >>= _) H s = _
      rw [hv]
      exact HReader.bind_error (deepcopy_deep ru own depth s (by omega))
  | slice o i j =>
    intro res F' hres
    unfold Op.onForest at hres
    dsimp only at hres
    rcases h.cases o with ⟨e1, e2, e3⟩ | ⟨r, p, root, a, fu, e1, e2, e3, e4, e5, e6⟩
    · rw [e3] at hres
      exact OpSim.error h (Memory.op_error (by show HReader.sliceAt (named names o) i j H s = _; rw [e2]; rfl)) _ _ hres
    · have sub : ∀ b ∈ fu, b ∈ fp := fun b m => List.count_pos_iff.1 (Nat.lt_of_lt_of_le (List.count_pos_iff.2 m) (e6 b))
      cases hv : F.value o with
      | list ts =>
        rw [hv] at hres e5
        dsimp only at hres
        rw [Option.map_eq_some_iff] at hres
        obtain ⟨us, hus, hres⟩ := hres
        cases hres
        obtain ⟨im, rfl⟩ := again_eq hus
        obtain ⟨_, vs, fps, e, rfl, hc, rs⟩ := e5.list_inv
        cases e
        have hl := rs.length
        have hrun : (Op.slice o i j).eval depth names H s = .ok (.ref H.length, H ++ [.list (sliceOf vs i j)], s) := by
          show HReader.sliceAt (named names o) i j H s = _
          unfold HReader.sliceAt
          rw [e2, HReader.bind_ok (cell_run hc _ s)]
          dsimp only
          rw [pyBound_eq, pyBound_eq]
          rfl
        obtain ⟨A, B, e7, k1, _⟩ := rs.split (bound vs.length j)
        obtain ⟨A', B', e8, _, k2⟩ := k1.split (bound vs.length i)
        have k3 : RepItems H (sliceOf vs i j) (sliceOf ts i j) B' := by unfold sliceOf; rw [← hl]; exact k2
        have hd : Handed H roots F.trees fp (sliceOf vs i j) ((sliceOf ts i j).map fun t => (t, Option.none)) :=
          .again k3 (fun b m => sub b (List.mem_cons_of_mem _ (by rw [e7, e8]; simp [m]))) im
        obtain ⟨roots', fp', k4, k5, k6⟩ := h.create (c := .list (sliceOf vs i j)) (node := .list (((sliceOf ts i j).map fun t => (t, (Option.none : Option Nat))).map (·.1)))
          (entry := .item) hd (by rw [again_gone]; exact .nil) (fun fx rx => .list (by simp) rx) (fun m x hm ne => absurd (again_gone _) ne)
        rw [Memory.op_ok (W := ⟨H, names⟩) hrun]
        exact ⟨roots', fp', by rw [k4], k5, k6, List.prefix_append _ _⟩
      | tuple ts =>
        rw [hv] at hres e5
        dsimp only at hres
        rw [Option.map_eq_some_iff] at hres
        obtain ⟨us, hus, hres⟩ := hres
        cases hres
        obtain ⟨im, rfl⟩ := again_eq hus
        obtain ⟨_, vs, fps, e, rfl, hc, rs⟩ := e5.tuple_inv
        cases e
        have hl := rs.length
        have hrun : (Op.slice o i j).eval depth names H s = .ok (.ref H.length, H ++ [.tuple (sliceOf vs i j)], s) := by
          show HReader.sliceAt (named names o) i j H s = _
          unfold HReader.sliceAt
          rw [e2, HReader.bind_ok (cell_run hc _ s)]
          dsimp only
          rw [pyBound_eq, pyBound_eq]
          rfl
        obtain ⟨A, B, e7, k1, _⟩ := rs.split (bound vs.length j)
        obtain ⟨A', B', e8, _, k2⟩ := k1.split (bound vs.length i)
        have k3 : RepItems H (sliceOf vs i j) (sliceOf ts i j) B' := by unfold sliceOf; rw [← hl]; exact k2
        have hd : Handed H roots F.trees fp (sliceOf vs i j) ((sliceOf ts i j).map fun t => (t, Option.none)) :=
          .again k3 (fun b m => sub b (List.mem_cons_of_mem _ (by rw [e7, e8]; simp [m]))) im
        obtain ⟨roots', fp', k4, k5, k6⟩ := h.create (c := .tuple (sliceOf vs i j)) (node := .tuple (((sliceOf ts i j).map fun t => (t, (Option.none : Option Nat))).map (·.1)))
          (entry := .item) hd (by rw [again_gone]; exact .nil) (fun fx rx => .tuple (by simp) rx) (fun m x hm ne => absurd (again_gone _) ne)
        rw [Memory.op_ok (W := ⟨H, names⟩) hrun]
        exact ⟨roots', fp', by rw [k4], k5, k6, List.prefix_append _ _⟩
      | obj c ts =>
        rw [hv] at hres e5
        obtain ⟨_, vs, fps, e, rfl, hc, rs⟩ := e5.obj_inv
        cases e
        refine OpSim.error h (Memory.op_error ?_) _ _ hres
        show HReader.sliceAt (named names o) i j H s = _
        unfold HReader.sliceAt
        rw [e2, HReader.bind_ok (cell_run hc _ s)]
        rfl
      | none => rw [hv] at e5; cases e5
      | int x => rw [hv] at e5; cases e5
      | float x => rw [hv] at e5; cases e5
      | str x => rw [hv] at e5; cases e5
  | extend o o' =>
    intro res F' hres
    unfold Op.onForest at hres
    dsimp only at hres
    rcases h.cases o with ⟨e1, e2, e3⟩ | ⟨r, p, root, a, fu, e1, e2, e3, e4, e5, e6⟩
    · rw [e1] at hres
      exact OpSim.error h (Memory.op_error (by show HReader.extendBy (named names o) (named names o') H s = _; rw [e2]; rfl)) _ _ hres
    · rw [e1] at hres
      cases hv : F.value o with
      | list ts =>
        rw [hv] at hres e5
        dsimp only at hres
        obtain ⟨_, vs, fps, e, rfl, hc, rs⟩ := e5.list_inv
        cases e
        have hl := rs.length
        have go : ∀ {us : List ObjTree} {ws : List HVal} {fw : List Nat}, RepItems H ws us fw → (∀ b ∈ fw, b ∈ fp) →
            (Op.extend o o').eval depth names H s = .ok (.none, H.set a (.list (vs ++ ws)), s) →
            (Forest.again us).map (fun us => ((.ok .none : Py Seen), F.splice (r, p) ts ts.length ts.length us)) = some (res, F') →
            ∃ roots' fp', (Memory.op depth s ⟨H, names⟩ (.extend o o')).1 = res ∧ Holds (Memory.op depth s ⟨H, names⟩ (.extend o o')).2 F' roots' fp' ∧
              Kept H (Memory.op depth s ⟨H, names⟩ (.extend o o')).2.heap fp fp' ∧ names <+: (Memory.op depth s ⟨H, names⟩ (.extend o o')).2.names := by
          intro us ws fw rw' sub hrun hres
          rw [Option.map_eq_some_iff] at hres
          obtain ⟨us', hus, hres⟩ := hres
          cases hres
          obtain ⟨im, rfl⟩ := again_eq hus
          have hd : Handed H roots F.trees fp ws (us.map fun t => (t, Option.none)) := .again rw' sub im
          obtain ⟨fp', k1, k2, k3⟩ := h.splice e1 hv e2 hc (i := ts.length) (k := ts.length) (Nat.le_refl _) (Nat.le_refl _) hd
            (by rw [again_gone]; exact .nil) (by rw [again_gone]; exact nofun)
          rw [← hl, List.take_length, List.drop_length, List.append_nil] at k1
          rw [← hl, Memory.op_ok (W := ⟨H, names⟩) hrun]
          exact ⟨_, fp', rfl, k1, .set k3 k2, List.prefix_refl _⟩
        rcases h.cases o' with ⟨q1, q2, q3⟩ | ⟨r', p', root', a', fu', q1, q2, q3, q4, q5, q6⟩
        · rw [q3] at hres
          refine OpSim.error h (Memory.op_error ?_) _ _ hres
          show HReader.extendBy (named names o) (named names o') H s = _
          unfold HReader.extendBy
          rw [e2, HReader.bind_ok (cell_run hc _ s), q2]
          rfl
        · have sub : ∀ b ∈ fu', b ∈ fp := fun b m => List.count_pos_iff.1 (Nat.lt_of_lt_of_le (List.count_pos_iff.2 m) (q6 b))
          cases hv' : F.value o' with
          | list us =>
            rw [hv'] at hres q5
            obtain ⟨_, ws, fw, e, rfl, hc', rs'⟩ := q5.list_inv
            cases e
            refine go rs' (fun b m => sub b (List.mem_cons_of_mem _ m)) ?_ hres
            show HReader.extendBy (named names o) (named names o') H s = _
            unfold HReader.extendBy
            rw [e2, HReader.bind_ok (cell_run hc _ s), q2]
            dsimp only
            rw [HReader.bind_ok (cell_run hc' _ s)]
            rfl
          | tuple us =>
            rw [hv'] at hres q5
            obtain ⟨_, ws, fw, e, rfl, hc', rs'⟩ := q5.tuple_inv
            cases e
            refine go rs' (fun b m => sub b (List.mem_cons_of_mem _ m)) ?_ hres
            show HReader.extendBy (named names o) (named names o') H s = _
            unfold HReader.extendBy
            rw [e2, HReader.bind_ok (cell_run hc _ s), q2]
            dsimp only
            rw [HReader.bind_ok (cell_run hc' _ s)]
            rfl
          | obj c us =>
            rw [hv'] at hres q5
            obtain ⟨_, ws, fw, e, rfl, hc', rs'⟩ := q5.obj_inv
            cases e
            refine OpSim.error h (Memory.op_error ?_) _ _ hres
            show HReader.extendBy (named names o) (named names o') H s = _
            unfold HReader.extendBy
            rw [e2, HReader.bind_ok (cell_run hc _ s), q2]
            dsimp only
            rw [HReader.bind_ok (cell_run hc' _ s)]
            rfl
          | none => rw [hv'] at q5; cases q5
          | int x => rw [hv'] at q5; cases q5
          | float x => rw [hv'] at q5; cases q5
          | str x => rw [hv'] at q5; cases q5
      | tuple ts =>
        rw [hv] at hres e5
        obtain ⟨_, vs, fps, e, rfl, hc, rs⟩ := e5.tuple_inv
        cases e
        refine OpSim.error h (Memory.op_error ?_) _ _ hres
        show HReader.extendBy (named names o) (named names o') H s = _
        unfold HReader.extendBy
        rw [e2, HReader.bind_ok (cell_run hc _ s)]
        rfl
      | obj c ts =>
        rw [hv] at hres e5
        obtain ⟨_, vs, fps, e, rfl, hc, rs⟩ := e5.obj_inv
        cases e
        refine OpSim.error h (Memory.op_error ?_) _ _ hres
        show HReader.extendBy (named names o) (named names o') H s = _
        unfold HReader.extendBy
        rw [e2, HReader.bind_ok (cell_run hc _ s)]
        rfl
      | none => rw [hv] at e5; cases e5
      | int x => rw [hv] at e5; cases e5
      | float x => rw [hv] at e5; cases e5
      | str x => rw [hv] at e5; cases e5
  | copy o =>
    intro res F' hres
    unfold Op.onForest at hres
    dsimp only at hres
    rcases h.cases o with ⟨e1, e2, e3⟩ | ⟨r, p, root, a, fu, e1, e2, e3, e4, e5, e6⟩
    · rw [e1] at hres
      cases hres
      rw [Memory.op_ok (W := ⟨H, names⟩) (v := .none) (H := H) (s' := s) (by show HReader.copy (named names o) H s = _; rw [e2]; rfl)]
      exact ⟨roots, fp, rfl, h, .refl _ _, List.prefix_refl _⟩
    · rw [e1] at hres
      have sub : ∀ b ∈ fu, b ∈ fp := fun b m => List.count_pos_iff.1 (Nat.lt_of_lt_of_le (List.count_pos_iff.2 m) (e6 b))
      cases hv : F.value o with
      | list ts =>
        rw [hv] at hres e5
        dsimp only at hres
        rw [Option.map_eq_some_iff] at hres
        obtain ⟨us, hus, hres⟩ := hres
        cases hres
        obtain ⟨im, rfl⟩ := again_eq hus
        obtain ⟨_, vs, fps, e, rfl, hc, rs⟩ := e5.list_inv
        cases e
        have hrun : (Op.copy o).eval depth names H s = .ok (.ref H.length, H ++ [.list vs], s) := by
          show HReader.copy (named names o) H s = _
          rw [e2]
          unfold HReader.copy
          dsimp only
          rw [HReader.bind_ok (cell_run hc _ s)]
          rfl
        have hd : Handed H roots F.trees fp vs (ts.map fun t => (t, Option.none)) := .again rs (fun b m => sub b (List.mem_cons_of_mem _ m)) im
        obtain ⟨roots', fp', k4, k5, k6⟩ := h.create (c := .list vs) (node := .list ((ts.map fun t => (t, (Option.none : Option Nat))).map (·.1)))
          (entry := .item) hd (by rw [again_gone]; exact .nil) (fun fx rx => .list (by simp) rx) (fun m x hm ne => absurd (again_gone _) ne)
        rw [Memory.op_ok (W := ⟨H, names⟩) hrun]
        exact ⟨roots', fp', by rw [k4], k5, k6, List.prefix_append _ _⟩
      | obj c ts =>
        rw [hv] at hres e5
        dsimp only at hres
        rw [Option.map_eq_some_iff] at hres
        obtain ⟨us, hus, hres⟩ := hres
        cases hres
        obtain ⟨im, rfl⟩ := again_eq hus
        obtain ⟨_, vs, fps, e, rfl, hc, rs⟩ := e5.obj_inv
        cases e
        have hrun : (Op.copy o).eval depth names H s = .ok (.ref H.length, H ++ [.record c vs], s) := by
          show HReader.copy (named names o) H s = _
          rw [e2]
          unfold HReader.copy
          dsimp only
          rw [HReader.bind_ok (cell_run hc _ s)]
          rfl
        obtain ⟨ri, en⟩ := rs.items
        have hd : Handed H roots F.trees fp (vs.map (·.2)) ((ts.map (·.2)).map fun t => (t, Option.none)) := .again ri (fun b m => sub b (List.mem_cons_of_mem _ m)) im
        have hz : vs = (ts.map (·.1)).zip (vs.map (·.2)) := by rw [← en, List.zip_map']; simp
        obtain ⟨roots', fp', k4, k5, k6⟩ := h.create (c := .record c vs)
          (node := .obj c ((ts.map (·.1)).zip (((ts.map (·.2)).map fun t => (t, (Option.none : Option Nat))).map (·.1)))) (entry := .item) hd
          (by rw [again_gone]; exact .nil) (fun fx rx => .obj (List.getElem?_concat_length) (by
            conv => arg 2; rw [hz]
            exact RepAttrs.zip rx (by rw [← en]; simp))) (fun m x hm ne => absurd (again_gone _) ne)
        rw [Memory.op_ok (W := ⟨H, names⟩) hrun]
        exact ⟨roots', fp', by rw [k4], k5, k6, List.prefix_append _ _⟩
      | tuple ts =>
        rw [hv] at hres e5
        obtain ⟨_, vs, fps, e, rfl, hc, rs⟩ := e5.tuple_inv
        cases e
        refine same e3 e4 (o := .copy o) ?_ _ _ hres
        show HReader.copy (named names o) H s = _
        rw [e2]
        unfold HReader.copy
        dsimp only
        rw [HReader.bind_ok (cell_run hc _ s)]
        rfl
      | none => rw [hv] at e5; cases e5
      | int x => rw [hv] at e5; cases e5
      | float x => rw [hv] at e5; cases e5
      | str x => rw [hv] at e5; cases e5

end Genie
