import Verif.Proof.Heap.Commands
import Verif.Spec.Fits
/-! # Attribute names; statements on shared objects -/

namespace Genie
open HReader ObjTree

namespace ObjTree

theorem NamedItems.of_mem : ∀ {ts : List ObjTree}, (∀ t ∈ ts, Named t) → NamedItems ts
  | [], _ => .nil
  | _ :: _, h => .cons (h _ List.mem_cons_self) (NamedItems.of_mem fun t ht => h t (List.mem_cons_of_mem _ ht))

theorem NamedItems.mem : ∀ {ts : List ObjTree}, NamedItems ts → ∀ t ∈ ts, Named t
  | _, .nil, _, h => nomatch h
  | _, .cons h hs, t, m => by
    rcases List.mem_cons.1 m with e | m
    · subst e; exact h
    · exact hs.mem t m

theorem NamedAttrs.attr {n : PyStr} : ∀ {ts : List (PyStr × ObjTree)} {t : ObjTree}, NamedAttrs ts → attrOf n ts = some t → Named t
  | _, _, .nil, h => nomatch h
  | _, _, .cons h hs, e => by
    unfold attrOf at e
    split at e
    · cases e; exact h
    · exact hs.attr e

theorem NamedAttrs.set {n : PyStr} {u : ObjTree} (hu : Named u) : ∀ {ts : List (PyStr × ObjTree)}, NamedAttrs ts → NamedAttrs (setAttrOf n u ts)
  | _, .nil => .nil
  | _, .cons h hs => by
    unfold setAttrOf
    split
    · exact .cons hu hs
    · exact .cons h (hs.set hu)

theorem setAttrOf_names {n : PyStr} {u : ObjTree} : ∀ {ts : List (PyStr × ObjTree)}, (setAttrOf n u ts).map (·.1) = ts.map (·.1)
  | [] => rfl
  | (m, t) :: ts => by
    unfold setAttrOf
    split
    · rfl
    · rw [List.map_cons, setAttrOf_names]; rfl

theorem NamedAttrs.snoc {n : PyStr} {u : ObjTree} (hu : Named u) : ∀ {ts : List (PyStr × ObjTree)}, NamedAttrs ts → NamedAttrs (ts ++ [(n, u)])
  | _, .nil => .cons hu .nil
  | _, .cons h hs => .cons h (hs.snoc hu)

theorem attrOf_isSome {n : PyStr} : ∀ {ts : List (PyStr × ObjTree)}, n ∈ ts.map (·.1) → (attrOf n ts).isSome
  | [], h => nomatch h
  | (m, t) :: ts, h => by
    unfold attrOf
    split
    · rfl
    · rename_i e
      rw [List.map_cons, List.mem_cons] at h
      exact attrOf_isSome (h.resolve_left fun h => e h.symm)

theorem Named.child {t u : ObjTree} {st : PathStep} (h : t.Named) (e : t.child st = some u) : u.Named := by
  cases h with
  | list hs => cases st with
    | attr n => cases e
    | item i => exact hs.mem u (List.mem_of_getElem? e)
  | tuple hs => cases st with
    | attr n => cases e
    | item i => exact hs.mem u (List.mem_of_getElem? e)
  | obj hn hs => cases st with
    | attr n => exact hs.attr e
    | item i => cases e
  | _ => cases e

theorem Named.get : ∀ {p : ObjPath} {t u : ObjTree}, t.Named → t.get p = some u → u.Named
  | [], _, _, h, e => by cases e; exact h
  | st :: p, t, u, h, e => by
    unfold ObjTree.get at e
    cases ec : t.child st with
    | none => rw [ec] at e; cases e
    | some c => rw [ec] at e; exact (h.child ec).get e

theorem NamedItems.set {u : ObjTree} (hu : Named u) {ts : List ObjTree} (i : Nat) (hs : NamedItems ts) : NamedItems (ts.set i u) :=
  NamedItems.of_mem fun t ht => by
    rcases List.mem_or_eq_of_mem_set ht with h | h
    · exact hs.mem t h
    · subst h; exact hu

theorem Named.setChild {t u : ObjTree} (h : t.Named) (hu : u.Named) (st : PathStep) : (t.setChild st u).Named := by
  cases h with
  | list hs => cases st with
    | attr n => exact .list hs
    | item i => exact .list (hs.set hu i)
  | tuple hs => cases st with
    | attr n => exact .tuple hs
    | item i => exact .tuple (hs.set hu i)
  | obj hn hs => cases st with
    | attr n => exact .obj (by rw [setAttrOf_names]; exact hn) (hs.set hu)
    | item i => exact .obj hn hs
  | none => cases st <;> exact .none
  | int i => cases st <;> exact .int i
  | float i => cases st <;> exact .float i
  | str i => cases st <;> exact .str i

theorem Named.put : ∀ {p : ObjPath} {t u : ObjTree}, t.Named → u.Named → (t.put p u).Named
  | [], _, _, _, hu => hu
  | st :: p, t, u, h, hu => by
    unfold ObjTree.put
    cases ec : t.child st with
    | none => exact h
    | some c => exact h.setChild ((h.child ec).put (p := p) hu) st

theorem Named.putAll {u : ObjTree} (hu : u.Named) : ∀ {S : List ObjPath} {t : ObjTree}, t.Named → (putAll u S t).Named
  | [], _, h => h
  | _ :: S, _, h => Named.putAll hu (S := S) (h.put hu)

end ObjTree

theorem Stmt.named {st : Stmt} {u x x' : ObjTree} (hu : u.Named) (hx : x.Named) (h : st.onTree u x = .ok x') : x'.Named := by
  cases st with
  | setAttr n =>
    cases x with
    | obj c ts =>
      simp only [Stmt.onTree, withAttr] at h
      split at h
      · cases h
        obtain ⟨h1, h2⟩ := hx.obj_inv
        exact .obj (by rw [setAttrOf_names]; exact h2) (h1.set hu)
      · rename_i ha
        split at h
        · cases h
        · cases h
          obtain ⟨h1, h2⟩ := hx.obj_inv
          refine .obj ?_ (h1.snoc hu)
          rw [List.map_append, List.nodup_append]
          refine ⟨h2, by simp, fun a hm b hb e => ?_⟩
          simp at hb
          subst hb e
          exact ha (attrOf_isSome hm)
    | _ => cases h
  | setItem i =>
    cases x with
    | list ts =>
      simp only [Stmt.onTree, withItem] at h
      split at h
      · cases h; exact .list (hx.list_inv.set hu i)
      · cases h
    | _ => cases h
  | append =>
    cases x with
    | list ts =>
      simp only [Stmt.onTree, withAppended] at h
      cases h
      refine .list (NamedItems.of_mem fun t ht => ?_)
      rcases List.mem_append.1 ht with h | h
      · exact hx.list_inv.mem t h
      · rw [List.mem_singleton.1 h]; exact hu
    | _ => cases h
  | pop =>
    cases x with
    | list ts =>
      cases ts with
      | nil => cases h
      | cons t ts =>
        cases h
        exact .list (NamedItems.of_mem fun t' ht => hx.list_inv.mem t' (List.dropLast_subset _ ht))
    | _ => cases h
  | insert i =>
    cases x with
    | list ts =>
      simp only [Stmt.onTree, withInserted] at h
      cases h
      refine .list (NamedItems.of_mem fun t ht => ?_)
      rcases List.mem_append.1 ht with h | h
      · rcases List.mem_append.1 h with h | h
        · exact hx.list_inv.mem t (List.mem_of_mem_take h)
        · rw [List.mem_singleton.1 h]; exact hu
      · exact hx.list_inv.mem t (List.mem_of_mem_drop h)
    | _ => cases h
  | delItem i =>
    cases x with
    | list ts =>
      simp only [Stmt.onTree, withoutItem] at h
      split at h
      · cases h
        refine .list (NamedItems.of_mem fun t ht => ?_)
        rcases List.mem_append.1 ht with h | h
        · exact hx.list_inv.mem t (List.mem_of_mem_take h)
        · exact hx.list_inv.mem t (List.mem_of_mem_drop h)
      · cases h
    | _ => cases h
  | delSlice i j =>
    cases x with
    | list ts =>
      simp only [Stmt.onTree, withoutSlice] at h
      cases h
      refine .list (NamedItems.of_mem fun t ht => ?_)
      rcases List.mem_append.1 ht with h | h
      · exact hx.list_inv.mem t (List.mem_of_mem_take h)
      · exact hx.list_inv.mem t (List.mem_of_mem_drop h)
    | _ => cases h

/-- Every object that is met has a place. -/
theorem Rep.path_of_mem {H : Heap} {v t fp a} (r : Rep H v t fp) (nm : t.Named) (h : a ∈ fp) : ∃ p, H.follow v p = some (.ref a) := by
  obtain ⟨ta, fa, ra, _⟩ := r.within a h
  obtain ⟨S, _, _, _, hS, hl, _⟩ := Rep.spread (fun _ _ _ => rfl) ra ra r nm
  have := List.count_pos_iff.2 h
  cases S with
  | nil => simp at hl; omega
  | cons p S => exact ⟨p, (hS p).1 List.mem_cons_self⟩

/-- The statement would make an object part of itself: it puts an object, or something it is a part of, into it. -/
def Command.Loops (H : Heap) (data : HVal) (c : Command) : Prop :=
  ∃ p q a, c.source = .share p ∧ H.follow data c.place = some (.ref a) ∧ H.follow data (p ++ q) = some (.ref a)

theorem Command.no_loop {H H1 : Heap} {data t fp} (r : Rep H data t fp) (nm : t.Named) {c : Command} {depth : Nat} (nl : ¬ c.Loops H data) {u v fpv}
    (hs : c.source.onTree depth t = .ok u) (made : Made H fp H1 v u fpv) (fresh : (∀ p, c.source ≠ .share p) → ∀ b ∈ fpv, H1.Mutable b → H.length ≤ b)
    (shared : ∀ p, c.source = .share p → H1 = H ∧ H.follow data p = some v) {a x fo} (ho : H1.follow data c.place = some (.ref a)) (ro : Rep H1 (.ref a) x fo)
    (ha : a ∈ fp) (hx : ∀ ts, x ≠ .tuple ts) : a ∉ fpv := by
  intro hm
  have m1 : H1.Mutable a := ro.mutable_iff.2 hx
  by_cases hsh : ∃ p, c.source = .share p
  · obtain ⟨p, hp⟩ := hsh
    obtain ⟨e1, e2⟩ := shared p hp
    subst e1
    rw [hp] at hs
    have nu : u.Named := nm.get (eval_get.1 hs)
    obtain ⟨q, hq⟩ := made.rep.path_of_mem nu hm
    exact nl ⟨p, q, a, hp, ho, by rw [Heap.follow_append e2]; exact hq⟩
  · have := fresh (fun p e => hsh ⟨p, e⟩) a hm m1
    have := r.bound a ha
    omega

/-- One statement on any graph of objects. -/
theorem Command.run_any {H : Heap} {data t fp} (r : Rep H data t fp) (nm : t.Named) (c : Command) (nl : ¬ c.Loops H data) (depth : Nat) (s : ByteHandler)
    {u x x' : ObjTree} (hs : c.source.onTree depth t = .ok u) (hp : t.eval c.place = .ok x) (hx : c.stmt.onTree u x = .ok x') :
    ∃ (a : Nat) (H' : Heap) (S : List ObjPath) (fp' : List Nat), H.follow data c.place = some (.ref a) ∧ c.run depth data H s = .ok ((), H', s) ∧
      S.Nodup ∧ (∀ p, p ∈ S ↔ H.follow data p = some (.ref a)) ∧ Rep H' data (putAll x' S t) fp' ∧ H.length ≤ H'.length ∧
      (∀ b, b < H.length → b ≠ a → H'[b]? = H[b]?) := by
  unfold Command.run
  obtain ⟨H1, v, fpv, h1, made, fresh, shared⟩ := Source.run_ok r c.source depth s hs
  rw [HReader.bind_ok h1]
  have fr : ∀ a ∈ fp, H1[a]? = H[a]? := fun a ha => made.same a (r.bound a ha)
  have r1 : Rep H1 data t fp := r.frame fr
  obtain ⟨o, fo, A, B, h2, ro, ef, plug⟩ := r1.at_place hp
  rw [HReader.bind_ok (Rep.eval_ok h2 s)]
  have ntup : ∀ ts, x ≠ .tuple ts := by
    rintro ts rfl
    revert hx
    cases c.stmt <;> intro hx <;> cases hx
  have na : ∀ a, o = .ref a → a ∉ fpv := by
    rintro a rfl
    exact Command.no_loop r nm nl hs made fresh shared h2 ro (by rw [ef]; simp [ro.head_mem]) ntup
  have loc := Stmt.run_local ro made.rep na c.stmt s
  rw [hx] at loc
  obtain ⟨a, cl, fo', rfl, h3, h4, h5, h6, h7⟩ := loc
  obtain ⟨S, fp', k1, k2, k3, k4, k5⟩ := Rep.spread (H := H1) (H' := H1.set a cl) (fun b hb _ => List.getElem?_set_ne (Ne.symm hb)) ro h4 r1 nm
  refine ⟨a, H1.set a cl, S, fp', ?_, h3, k2, fun p => ?_, k1, ?_, fun b hb hn => ?_⟩
  · rw [← follow_frame r fr]; exact h2
  · rw [k3 p, follow_frame r fr]
  · rw [List.length_set]; exact made.len
  · rw [List.getElem?_set_ne (Ne.symm hn)]; exact made.same b hb

/-- One statement on any graph of objects that raises. -/
theorem Command.run_any_error {H : Heap} {data t fp} (r : Rep H data t fp) (nm : t.Named) (c : Command) (nl : ¬ c.Loops H data) (depth : Nat) (s : ByteHandler)
    {e : PyErr} (he : c.onTree depth t = .error e) (hr : e = .recursionError → Owned H fp) : c.run depth data H s = .error e := by
  unfold Command.onTree at he
  unfold Command.run
  cases hs : c.source.onTree depth t with
  | error e' =>
    rw [hs] at he
    cases he
    exact HReader.bind_error (Source.run_error r _ depth s hr hs)
  | ok u =>
    rw [hs] at he
    dsimp only at he
    obtain ⟨H1, v, fpv, h1, made, fresh, shared⟩ := Source.run_ok r c.source depth s hs
    rw [HReader.bind_ok h1]
    have r1 : Rep H1 data t fp := r.frame fun a ha => made.same a (r.bound a ha)
    cases hp : t.eval c.place with
    | error e' =>
      rw [hp] at he
      cases he
      exact HReader.bind_error (Rep.eval_error r1 hp s)
    | ok x =>
      rw [hp] at he
      dsimp only at he
      obtain ⟨o, fo, A, B, h2, ro, ef, plug⟩ := r1.at_place hp
      rw [HReader.bind_ok (Rep.eval_ok h2 s)]
      cases hst : c.stmt.onTree u x with
      | ok x' => rw [hst] at he; cases he
      | error e' =>
        rw [hst] at he
        cases he
        by_cases ht : ∃ ts, x = .tuple ts
        · obtain ⟨ts, rfl⟩ := ht
          obtain ⟨_, vs, fps, rfl, rfl, hc, rs⟩ := ro.tuple_inv
          revert hst
          cases c.stmt with
          | setAttr n => intro hst; cases hst; simp only [Stmt.run]; unfold HReader.setAttr; rw [HReader.bind_ok (Genie.cell_run hc _ s)]; rfl
          | setItem n => intro hst; cases hst; simp only [Stmt.run]; unfold HReader.setItem; rw [HReader.bind_ok (Genie.cell_run hc _ s)]; rfl
          | append => intro hst; cases hst; simp only [Stmt.run]; unfold HReader.append; rw [HReader.bind_ok (Genie.cell_run hc _ s)]; rfl
          | pop => intro hst; cases hst; simp only [Stmt.run]; unfold HReader.pop; rw [HReader.bind_ok (Genie.cell_run hc _ s)]; rfl
          | insert i => intro hst; cases hst; simp only [Stmt.run]; unfold HReader.insert; rw [HReader.bind_ok (Genie.cell_run hc _ s)]; rfl
          | delItem i => intro hst; cases hst; simp only [Stmt.run]; unfold HReader.delItem; rw [HReader.bind_ok (Genie.cell_run hc _ s)]; rfl
          | delSlice i j => intro hst; cases hst; simp only [Stmt.run]; unfold HReader.delSlice; rw [HReader.bind_ok (Genie.cell_run hc _ s)]; rfl
        · have na : ∀ a, o = .ref a → a ∉ fpv := by
            rintro a rfl
            exact Command.no_loop r nm nl hs made fresh shared h2 ro (by rw [ef]; simp [ro.head_mem]) fun ts e => ht ⟨ts, e⟩
          have loc := Stmt.run_local ro made.rep na c.stmt s
          rw [hst] at loc
          exact loc

/-! ## what fits its annotations has proper names -/

mutual
theorem Suits.named {D : PyStr → List (PyStr × Ann) → Prop} (hD : ∀ c fs, D c fs → (fs.map (·.1)).Nodup) : ∀ {a t}, Suits D a t → t.Named
  | _, _, .int i => .int i
  | _, _, .float x => .float x
  | _, _, .promote _ => .int _
  | _, _, .str s => .str s
  | _, _, .list h => .list (NamedItems.of_mem fun t ht => (h t ht).named hD)
  | _, _, .tuple h => .tuple (h.named hD)
  | _, _, .none => .none
  | _, _, .some h => h.named hD
  | _, _, .cls d h => .obj (by rw [(h.named hD).2]; exact hD _ _ d) (h.named hD).1
theorem SuitsAll.named {D : PyStr → List (PyStr × Ann) → Prop} (hD : ∀ c fs, D c fs → (fs.map (·.1)).Nodup) : ∀ {a t}, SuitsAll D a t → NamedItems t
  | _, _, .nil => .nil
  | _, _, .cons h hs => .cons (h.named hD) (hs.named hD)
theorem SuitsFields.named {D : PyStr → List (PyStr × Ann) → Prop} (hD : ∀ c fs, D c fs → (fs.map (·.1)).Nodup) :
    ∀ {fs ts}, SuitsFields D fs ts → NamedAttrs ts ∧ ts.map (·.1) = fs.map (·.1)
  | _, _, .nil => ⟨.nil, rfl⟩
  | _, _, .cons h hs => ⟨.cons (h.named hD) (hs.named hD).1, by rw [List.map_cons, List.map_cons, (hs.named hD).2]⟩
end

end Genie
