import Verif.Proof.Heap.CopyTypes
import Verif.Props.C48_TypedPrograms
/-!
# C50: copies, and objects in several places

`copy.deepcopy` (`Verif/Model/HeapCopy.lean`), and programs whose right-hand sides are new objects, copies of existing objects, or existing
objects themselves.  `commandTree` (`Verif/Spec/Copies.lean`) is what such a program means if values are all that matters.
-/

namespace Genie
open HReader ObjTree

/-! ## `copy.deepcopy` -/

/-- `copy.deepcopy(v)`: either it runs out of room, and then the nesting of `v` is deeper than the room; or nothing that exists is changed,
and the result has the value of `v`; `κ` maps the objects of `v` to those of the copy: at every place of the copy is the image of what is at
that place of `v`, different objects have different images (so that objects that are in several places of `v` are in exactly those places of
the copy), and the image of everything that can be changed is new. -/
theorem C50_deepcopy (H : Heap) (v : HVal) (t : ObjTree) (fp : List Nat) (r : Rep H v t fp) (depth : Nat) (s : ByteHandler) :
    (deepcopy depth v [] H s = .error .recursionError ∧ depth < t.height) ∨
    ∃ (H' : Heap) (M : Memo) (w : HVal) (κ : Nat → Nat), deepcopy depth v [] H s = .ok ((w, M), H', s) ∧
      H <+: H' ∧ Rep H' v t fp ∧ Rep H' w t (fp.map κ) ∧
      (∀ p, H'.follow w p = (H.follow v p).map fun x => match x with | .ref a => .ref (κ a) | x => x) ∧
      (∀ a ∈ fp, ∀ b ∈ fp, κ a = κ b → a = b) ∧ (∀ a ∈ fp, H.Mutable a → H.length ≤ κ a) := by
  rcases deepcopy_run r depth s with h | ⟨H', M, w, κ, e, l, same, r', inj, new, _, _⟩
  · exact .inl h
  · refine .inr ⟨H', M, w, κ, e, ?_, r.frame fun a ha => same a (r.bound a ha), r', fun p => ?_, inj, new⟩
    · rw [List.prefix_iff_eq_take]
      apply List.ext_getElem?
      intro i
      by_cases hi : i < H.length
      · rw [List.getElem?_take_of_lt hi, same i hi]
      · rw [List.getElem?_eq_none (by omega), List.getElem?_eq_none (by simp; omega)]
    · rw [r.twin r']
      cases H.follow v p with
      | none => rfl
      | some x => cases x <;> rfl

/-- Where no changeable object is met twice, the room that is needed is exactly the depth of the nesting. -/
theorem C50_deepcopy_room (H : Heap) (v : HVal) (t : ObjTree) (fp : List Nat) (r : Rep H v t fp) (own : ∀ a, H.Mutable a → fp.count a ≤ 1)
    (depth : Nat) (s : ByteHandler) : (∃ out, deepcopy depth v [] H s = .ok out) ↔ t.height ≤ depth := by
  constructor
  · rintro ⟨out, h⟩
    rcases Nat.lt_or_ge depth t.height with l | l
    · rw [deepcopy_deep r own depth s l] at h; cases h
    · exact l
  · intro l
    rcases deepcopy_run r depth s with h | ⟨_, _, _, _, e, _⟩
    · omega
    · exact ⟨_, e⟩

/-! ## programs that share nothing changeable -/

/-- A program whose right-hand sides are new objects, deep copies, and immutable objects, run on objects no changeable one of which is met
twice: it does to the objects what `commandTree` does to the value, no changeable object is met twice afterwards, and what is not reachable
from `data`, or cannot be changed, stays as it is. -/
theorem C50_programs (H : Heap) (data : HVal) (t : ObjTree) (fp : List Nat) (r : Rep H data t fp) (own : ∀ a, H.Mutable a → fp.count a ≤ 1)
    (cs : List Command) (depth : Nat) (s : ByteHandler) (sep : Separate depth cs t) :
    match commandTree depth cs t with
    | .ok t' => ∃ (H' : Heap) (fp' : List Nat), runCommands depth data cs H s = .ok ((), H', s) ∧ Rep H' data t' fp' ∧
        (∀ a, H'.Mutable a → fp'.count a ≤ 1) ∧ H.length ≤ H'.length ∧
        (∀ a, a < H.length → a ∉ fp ∨ ¬ H.Mutable a → H'[a]? = H[a]?) ∧ (∀ a ∈ fp', a ∈ fp ∨ H.length ≤ a) ∧
        ((∀ c ∈ cs, c.place ≠ []) → ∀ a, data = .ref a → H'[a]? = H[a]?)
    | .error e => runCommands depth data cs H s = .error e := by
  induction cs generalizing H t fp with
  | nil => exact ⟨H, fp, rfl, r, own, Nat.le_refl _, fun _ _ _ => rfl, fun _ h => .inl h, fun _ _ _ => rfl⟩
  | cons c cs ih =>
    unfold commandTree runCommands
    have one := Command.run_own r own c depth s sep.1
    cases e : c.onTree depth t with
    | error x =>
      rw [e] at one
      exact HReader.bind_error one
    | ok t1 =>
      rw [e] at one
      obtain ⟨H1, fp1, h1, r1, own1, l1, f1, m1, k1⟩ := one
      rw [HReader.bind_ok h1]
      dsimp only
      have rest := ih H1 t1 fp1 r1 own1 (sep.2 t1 e)
      cases e2 : commandTree depth cs t1 with
      | error x => rw [e2] at rest; exact rest
      | ok t2 =>
        rw [e2] at rest
        obtain ⟨H2, fp2, h2, r2, own2, l2, f2, m2, k2⟩ := rest
        refine ⟨H2, fp2, h2, r2, own2, Nat.le_trans l1 l2, fun a ha hf => ?_, fun a ha => ?_, fun hp a hd => ?_⟩
        · have same := f1 a ha hf
          rw [f2 a (by omega) ?_, same]
          rcases hf with hf | hf
          · by_cases h : a ∈ fp1
            · rcases m1 a h with h | h
              · exact absurd h hf
              · omega
            · exact .inl h
          · refine .inr fun ⟨cl, hc, hn⟩ => hf ⟨cl, ?_, hn⟩
            rw [← same]; exact hc
        · rcases m2 a ha with h | h
          · exact m1 a h
          · exact .inr (by omega)
        · subst hd
          rw [k2 (fun c hc => hp c (List.mem_cons_of_mem _ hc)) a rfl]
          refine k1 a (r.bound a r.head_mem) fun hf => ?_
          exact hp c List.mem_cons_self (r.follow_self hf)

/-- Such a program is as good as one with the values written out: same places, same statements, new objects on every right-hand side. -/
theorem C50_copies_are_literals (cs : List Command) (depth : Nat) (t t' : ObjTree) (h : commandTree depth cs t = .ok t') :
    ∃ es : List Edit, es.map (fun e => (e.place, e.stmt)) = cs.map (fun c => (c.place, c.stmt)) ∧ editTree es t = .ok t' := by
  induction cs generalizing t with
  | nil => exact ⟨[], rfl, h⟩
  | cons c cs ih =>
    unfold commandTree at h
    cases e : c.onTree depth t with
    | error x => rw [e] at h; cases h
    | ok t1 =>
      rw [e] at h
      obtain ⟨es, h1, h2⟩ := ih t1 h
      unfold Command.onTree at e
      cases hs : c.source.onTree depth t with
      | error x => rw [hs] at e; cases e
      | ok u =>
        rw [hs] at e
        dsimp only at e
        refine ⟨⟨c.place, c.stmt, u⟩ :: es, by simp [h1], ?_⟩
        unfold editTree
        cases hp : t.eval c.place with
        | error x => rw [hp] at e; cases e
        | ok x =>
          rw [hp] at e
          dsimp only at e ⊢
          cases hx : c.stmt.onTree u x with
          | error y => rw [hx] at e; cases e
          | ok x' =>
            rw [hx] at e
            cases e
            exact h2

/-- A copy and its original are independent: whatever such a program does to the one, the other keeps its value. -/
theorem C50_independent (H H1 : Heap) (v w : HVal) (M : Memo) (t : ObjTree) (fp : List Nat) (r : Rep H v t fp)
    (own : ∀ a, H.Mutable a → fp.count a ≤ 1) (depth n : Nat) (s s' : ByteHandler) (h : deepcopy depth v [] H s = .ok ((w, M), H1, s'))
    (cs : List Command) (sep : Separate n cs t) (t' : ObjTree) (ht : commandTree n cs t = .ok t') :
    (∃ H2 f g, runCommands n w cs H1 s = .ok ((), H2, s) ∧ Rep H2 w t' f ∧ Rep H2 v t g) ∧
    (∃ H2 f g, runCommands n v cs H1 s = .ok ((), H2, s) ∧ Rep H2 v t' f ∧ Rep H2 w t g) := by
  rcases deepcopy_run r depth s with ⟨e, _⟩ | ⟨H1', M', w', κ, e, l, same, r', inj, new, old, rep⟩
  · rw [h] at e; cases e
  · rw [h] at e
    have e := Except.ok.inj e
    have e1 : w = w' := (Prod.mk.inj (Prod.mk.inj e).1).1
    have e2 : H1 = H1' := (Prod.mk.inj (Prod.mk.inj e).2).1
    subst e1 e2
    have rv : Rep H1 v t fp := r.frame fun a ha => same a (r.bound a ha)
    have ownw : ∀ a, H1.Mutable a → (fp.map κ).count a ≤ 1 := by
      intro a m
      by_cases hm : a ∈ fp.map κ
      · obtain ⟨x, hx, rfl⟩ := List.mem_map.1 hm
        rw [count_map_inj fun y hy he => inj y hy x hx he]
        obtain ⟨tx, fx, rx, _, _⟩ := r.within x hx
        exact own x (rx.mutable_iff.2 ((rep x hx tx fx rx).mutable_iff.1 m))
      · rw [List.count_eq_zero.2 hm]; omega
    have ownv : ∀ a, H1.Mutable a → fp.count a ≤ 1 := by
      intro a m
      by_cases hm : a ∈ fp
      · exact own a ((mutable_same same (r.bound a hm)).1 m)
      · rw [List.count_eq_zero.2 hm]; omega
    have stuck : ∀ a ∈ fp, κ a = a → ¬ H1.Mutable a := fun a ha e m => by
      have h1 := r.bound a ha
      have h2 := new a ha ((mutable_same same h1).1 m)
      omega
    constructor
    · have main := C50_programs H1 w t _ r' ownw cs n s sep
      rw [ht] at main
      obtain ⟨H2, f, h1, h2, _, _, h3, _⟩ := main
      refine ⟨H2, f, fp, h1, h2, rv.frame fun a ha => h3 a (rv.bound a ha) ?_⟩
      by_cases hm : a ∈ fp.map κ
      · obtain ⟨x, hx, e⟩ := List.mem_map.1 hm
        have la := r.bound a ha
        rcases old x hx with ho | ho
        · have : x = a := by rw [← e, ho]
          subst this
          exact .inr (stuck x ha ho)
        · omega
      · exact .inl hm
    · have main := C50_programs H1 v t fp rv ownv cs n s sep
      rw [ht] at main
      obtain ⟨H2, f, h1, h2, _, _, h3, _⟩ := main
      refine ⟨H2, f, fp.map κ, h1, h2, r'.frame fun a ha => h3 a (r'.bound a ha) ?_⟩
      obtain ⟨x, hx, e⟩ := List.mem_map.1 ha
      rcases old x hx with ho | ho
      · have : x = a := by rw [← e, ho]
        subst this
        exact .inr (stuck x hx ho)
      · exact .inl fun hm => by have := r.bound a hm; omega

/-! ## objects in several places -/

/-- A statement on any graph of objects, shared or not (but without making an object part of itself): it changes the object at its place,
so the new value appears at exactly the places that hold this very object, and nothing changes anywhere else. -/
theorem C50_shared_statement (H : Heap) (data : HVal) (t : ObjTree) (fp : List Nat) (r : Rep H data t fp) (nm : t.Named) (c : Command)
    (nl : ∀ p q a, c.source = .share p → H.follow data c.place = some (.ref a) → H.follow data (p ++ q) ≠ some (.ref a))
    (depth : Nat) (s : ByteHandler) (u x x' : ObjTree) (hs : c.source.onTree depth t = .ok u) (hp : t.eval c.place = .ok x)
    (hx : c.stmt.onTree u x = .ok x') :
    ∃ (H' : Heap) (t' : ObjTree) (fp' : List Nat), c.run depth data H s = .ok ((), H', s) ∧ Rep H' data t' fp' ∧
      (∀ q, H.follow data q = H.follow data c.place → t'.get q = some x') ∧
      (∀ q, (∀ p, H.follow data p = H.follow data c.place → ¬ p <+: q ∧ ¬ q <+: p) → t'.get q = t.get q) ∧
      (u.Named → t'.Named) := by
  obtain ⟨a, H', S, fp', h1, h2, h3, h4, h5, _, _⟩ := Command.run_any r nm c (fun ⟨p, q, a, e1, e2, e3⟩ => nl p q a e1 e2 e3) depth s hs hp hx
  have key : ∀ q, H.follow data q = H.follow data c.place ↔ q ∈ S := fun q => by rw [h4, h1]
  refine ⟨H', putAll x' S t, fp', h2, h5, fun q hq => ?_, fun q hq => ?_, fun nu => ?_⟩
  · refine putAll_get_in x' S t h3 (fun p hp q hq => places_apart r ((h4 p).1 hp) ((h4 q).1 hq)) (fun p hp => ?_) q ((key q).1 hq)
    obtain ⟨c, _, hc, _⟩ := ObjTree.get_some_of_follow r ((h4 p).1 hp)
    exact ⟨c, hc⟩
  · exact putAll_get_out x' S t q fun p hp => hq p ((key p).2 hp)
  · exact Named.putAll (Stmt.named nu (nm.get (eval_get.1 hp)) hx) nm

/-- A statement on any graph of objects that raises: it raises what it raises on the value.  (Except that a copy of something deep may
succeed although there is no room for the deepest nesting, when it meets the deep parts first by a shorter way.) -/
theorem C50_shared_error (H : Heap) (data : HVal) (t : ObjTree) (fp : List Nat) (r : Rep H data t fp) (nm : t.Named) (c : Command)
    (nl : ∀ p q a, c.source = .share p → H.follow data c.place = some (.ref a) → H.follow data (p ++ q) ≠ some (.ref a))
    (depth : Nat) (s : ByteHandler) (e : PyErr) (he : c.onTree depth t = .error e) (hr : e ≠ .recursionError) :
    c.run depth data H s = .error e :=
  Command.run_any_error r nm c (fun ⟨p, q, a, e1, e2, e3⟩ => nl p q a e1 e2 e3) depth s he fun h => absurd h hr

/-- What is loaded has no two attributes of one name: the previous theorems apply to it, and to everything that fits the annotations. -/
theorem C50_named (a : Ann) (t : ObjTree) (h : Suits (Declares false) a t) : t.Named := h.named Declares.names

/-! ## files -/

/-- A whole file can be copied with room for nine nested calls; the copy is written like the original. -/
theorem C50_copy_file (H H' : Heap) (s s' s1 : ByteHandler) (o : HVal) (h : DatFile.build H s = .ok (o, H', s')) (depth : Nat) (hd : 9 ≤ depth) :
    ∃ (d : DatFile) (w : HVal) (M : Memo) (H'' : Heap), DatFile.fromBytes s = .ok (d, s') ∧ deepcopy depth o [] H' s1 = .ok ((w, M), H'', s1) ∧
      w ≠ o ∧ ∀ n ver, 5 ≤ n → W.toBytes H'' n w ver = d.toBytes ∧ W.toBytes H'' n o ver = d.toBytes := by
  obtain ⟨d, N, fp, hd', rfl, r, nd, fr⟩ := load_value h
  have hl := DatFile.lengths (C13_parsed_wellformed _ _ _ hd')
  have hc := DatFile.converts (decide (s'.version.num < 84)) d
  have f := (C48_fits_iff _).2 ⟨d, hl, hc⟩
  have hh : (d.object (decide (s'.version.num < 84))).height ≤ 9 :=
    Nat.le_trans (f.height Declares.reach) (show Ann.reach rankOf (.cls (lit "DatFile")) ≤ 9 by decide +kernel)
  rcases C50_deepcopy _ o _ fp r depth s1 with ⟨_, l⟩ | ⟨H'', M, w, κ, e, _, r1, r2, _, _, new⟩
  · omega
  · refine ⟨d, w, M, H'', hd', e, ?_, fun n ver hn => ⟨C47_save _ w _ _ r2 d hc.carries hl.sized n hn ver, C47_save _ o _ _ r1 d hc.carries hl.sized n hn ver⟩⟩
    rintro rfl
    obtain ⟨a, vs, fps, rfl, rfl, hcell, _⟩ := r.obj_inv
    have e1 := r2.det r1
    have e2 : κ a = a := by
      have := e1.2
      rw [List.map_cons] at this
      exact (List.cons.inj this).1
    have e3 := new a List.mem_cons_self ⟨_, hcell, fun _ h => (nomatch h)⟩
    have := lt_of_cell hcell
    omega

/-- Run a well-typed program with copies on several files (`data` is a list of them: `data[0]`, `data[1]`, …), or on one (`root` is
`DatFile`).  Either it raises — an index out of range, or a use of `None` — or it does what it says on values, and every file fits its
annotations. -/
theorem C50_typed (root : Ann) (H : Heap) (data : HVal) (t : ObjTree) (fp : List Nat) (r : Rep H data t fp)
    (own : ∀ a, H.Mutable a → fp.count a ≤ 1) (ft : Suits (Declares false) root t) (cs : List Command)
    (hcs : ∀ c ∈ cs, c.Typed (Declares false) root) (depth : Nat) (hd : root.reach rankOf ≤ depth) (s : ByteHandler) :
    (∃ x, commandTree depth cs t = .error x ∧ runCommands depth data cs H s = .error x ∧
      (x = .indexError ∨ x = .attributeError ∨ x = .typeError)) ∨
    (∃ (H' : Heap) (t' : ObjTree) (fp' : List Nat), commandTree depth cs t = .ok t' ∧ runCommands depth data cs H s = .ok ((), H', s) ∧
      Rep H' data t' fp' ∧ (∀ a, H'.Mutable a → fp'.count a ≤ 1) ∧ Suits (Declares false) root t' ∧
      ((∀ c ∈ cs, c.place ≠ []) → ∀ a, data = .ref a → H'[a]? = H[a]?)) := by
  have sep := typed_separate (depth := depth) Declares.oneDef hcs ft
  have main := C50_programs H data t fp r own cs depth s sep
  cases e : commandTree depth cs t with
  | ok t' =>
    rw [e] at main
    obtain ⟨H', fp', h1, h2, h3, _, _, _, h4⟩ := main
    exact .inr ⟨H', t', fp', rfl, h1, h2, h3, typed_keeps Declares.oneDef hcs ft e, h4⟩
  | error x =>
    rw [e] at main
    refine .inl ⟨x, rfl, main, ?_⟩
    clear main sep r own
    induction cs generalizing t with
    | nil => cases e
    | cons c cs ih =>
      unfold commandTree at e
      have tc := hcs c List.mem_cons_self
      cases e1 : c.onTree depth t with
      | error y =>
        rw [e1] at e
        cases e
        exact tc.exprErr Declares.oneDef ft (Nat.le_trans (ft.height Declares.reach) hd) e1
      | ok t1 =>
        rw [e1] at e
        exact ih t1 (tc.keeps Declares.oneDef ft e1) (fun c hc => hcs c (List.mem_cons_of_mem _ hc)) e

/-- Load, run a well-typed program with copies, save. -/
theorem C50_load_copy_save (H H' : Heap) (s s' s1 : ByteHandler) (o : HVal) (h : DatFile.build H s = .ok (o, H', s')) (cs : List Command)
    (hcs : ∀ c ∈ cs, c.Typed (Declares false) (.cls (lit "DatFile"))) (depth : Nat) (hd : 9 ≤ depth) :
    ∃ d, DatFile.fromBytes s = .ok (d, s') ∧
    ((∃ x, commandTree depth cs (d.object (decide (s'.version.num < 84))) = .error x ∧ runCommands depth o cs H' s1 = .error x ∧
        (x = .indexError ∨ x = .attributeError ∨ x = .typeError)) ∨
      (∃ H'' t' d', commandTree depth cs (d.object (decide (s'.version.num < 84))) = .ok t' ∧ runCommands depth o cs H' s1 = .ok ((), H'', s1) ∧
        Converts t' (DatFile.object false d') ∧ ∀ n ver, 5 ≤ n → W.toBytes H'' n o ver = d'.toBytes)) := by
  obtain ⟨d, N, fp, hd', rfl, r, nd, fr⟩ := load_value h
  have f := (C48_fits_iff _).2 ⟨d, DatFile.lengths (C13_parsed_wellformed _ _ _ hd'), DatFile.converts (decide (s'.version.num < 84)) d⟩
  refine ⟨d, hd', ?_⟩
  rcases C50_typed _ _ o _ fp r (fun a _ => List.nodup_iff_count.1 nd a) f cs hcs depth
    (Nat.le_trans (show Ann.reach rankOf (.cls (lit "DatFile")) ≤ 9 by decide +kernel) hd) s1 with h | ⟨H'', t', fp', h1, h2, h3, _, h4, _⟩
  · exact .inl h
  · obtain ⟨d', hl, hc⟩ := (C48_fits_iff _).1 h4
    exact .inr ⟨H'', t', d', h1, h2, hc, fun n ver hn => C47_save _ o _ fp' h3 d' hc.carries hl.sized n hn ver⟩

/-- The same with files: `data = DatFile.parse(src)`, a well-typed program with copies, `data.save(dst)`.  If the file cannot be loaded or
the program raises, no file is touched; otherwise the disk ends up as if the value `d'` that the program makes of the loaded value had been
saved, at any crash or fault. -/
theorem C50_file (z : Zlib) (env : Environment) (fs : FileSystem) (H : Heap) (depth : Nat) (hd : 9 ≤ depth) (n : Nat) (hn : 5 ≤ n)
    (src dst : Path) (cs : List Command) (hcs : ∀ c ∈ cs, c.Typed (Declares false) (.cls (lit "DatFile"))) :
    match DatFile.parse z fs src with
    | .raised e => editObject (fun o => runCommands depth o cs) z env fs H n src dst = (fs, .raised e)
    | .crashed => False
    | .returned d =>
      (∃ x, commandTree depth cs (d.object d.old) = .error x ∧ (x = .indexError ∨ x = .attributeError ∨ x = .typeError) ∧
        editObject (fun o => runCommands depth o cs) z env fs H n src dst = (fs, .raised x)) ∨
      (∃ t d', commandTree depth cs (d.object d.old) = .ok t ∧ Converts t (DatFile.object false d') ∧
        editObject (fun o => runCommands depth o cs) z env fs H n src dst = DatFile.save z env fs d' dst) := by
  have hp := C47_parse z fs src H
  unfold editObject
  cases e : DatFile.parse z fs src with
  | raised x => rw [e] at hp; dsimp only at hp ⊢; rw [hp]
  | crashed => rw [e] at hp; exact hp.elim
  | returned d =>
    rw [e] at hp
    obtain ⟨o, N, fp, h1, r, nd, fr, v, hw⟩ := hp
    rw [h1]
    dsimp only
    have f := (C48_fits_iff _).2 ⟨d, DatFile.lengths hw, DatFile.converts d.old d⟩
    rcases C50_typed _ _ o _ fp r (fun a _ => List.nodup_iff_count.1 nd a) f cs hcs depth
      (Nat.le_trans (show Ann.reach rankOf (.cls (lit "DatFile")) ≤ 9 by decide +kernel) hd) (ByteHandler.new [])
      with ⟨x, k1, k2, k3⟩ | ⟨H'', t', fp', k1, k2, k3, _, k4, _⟩
    · refine .inl ⟨x, k1, k3, ?_⟩
      rw [k2]
    · obtain ⟨d', hl, hc⟩ := (C48_fits_iff _).1 k4
      refine .inr ⟨t', d', k1, hc, ?_⟩
      rw [k2]
      exact C47_save_file z env fs H'' o t' fp' k3 d' hc.carries hl.sized n hn dst

/-- Load two files, copy between them with a well-typed program on the list `[data1, data2]` that does not touch the list itself, save
either: each is written as the value that the program makes of it. -/
theorem C50_two_files (H0 H1 H2 : Heap) (s1 s1' s2 s2' s : ByteHandler) (o1 o2 : HVal) (h1 : DatFile.build H0 s1 = .ok (o1, H1, s1'))
    (h2 : DatFile.build H1 s2 = .ok (o2, H2, s2')) (cs : List Command)
    (hcs : ∀ c ∈ cs, c.Typed (Declares false) (.list (.cls (lit "DatFile"))) ∧ c.place ≠ []) (depth : Nat) (hd : 10 ≤ depth) :
    ∃ d1 d2, DatFile.fromBytes s1 = .ok (d1, s1') ∧ DatFile.fromBytes s2 = .ok (d2, s2') ∧
    ((∃ x, commandTree depth cs (.list [d1.object (decide (s1'.version.num < 84)), d2.object (decide (s2'.version.num < 84))]) = .error x ∧
        runCommands depth (.ref H2.length) cs (H2 ++ [.list [o1, o2]]) s = .error x ∧ (x = .indexError ∨ x = .attributeError ∨ x = .typeError)) ∨
      (∃ H' t1 t2 d1' d2',
        commandTree depth cs (.list [d1.object (decide (s1'.version.num < 84)), d2.object (decide (s2'.version.num < 84))]) = .ok (.list [t1, t2]) ∧
        runCommands depth (.ref H2.length) cs (H2 ++ [.list [o1, o2]]) s = .ok ((), H', s) ∧
        Converts t1 (DatFile.object false d1') ∧ Converts t2 (DatFile.object false d2') ∧
        ∀ n ver, 5 ≤ n → W.toBytes H' n o1 ver = d1'.toBytes ∧ W.toBytes H' n o2 ver = d2'.toBytes)) := by
  obtain ⟨d1, N1, f1, hd1, rfl, r1, nd1, fr1⟩ := load_value h1
  obtain ⟨d2, N2, f2, hd2, rfl, r2, nd2, fr2⟩ := load_value h2
  have w1 := (C48_fits_iff _).2 ⟨d1, DatFile.lengths (C13_parsed_wellformed _ _ _ hd1), DatFile.converts (decide (s1'.version.num < 84)) d1⟩
  have w2 := (C48_fits_iff _).2 ⟨d2, DatFile.lengths (C13_parsed_wellformed _ _ _ hd2), DatFile.converts (decide (s2'.version.num < 84)) d2⟩
  refine ⟨d1, d2, hd1, hd2, ?_⟩
  generalize decide (s1'.version.num < 84) = b1 at *
  generalize decide (s2'.version.num < 84) = b2 at *
  have rt : Rep (H0 ++ N1 ++ N2 ++ [.list [o1, o2]]) (.ref (H0 ++ N1 ++ N2).length) (.list [d1.object b1, d2.object b2])
      ((H0 ++ N1 ++ N2).length :: (f1 ++ (f2 ++ []))) :=
    .list (vs := [o1, o2]) (by simp) (.cons ((r1.extend N2).extend _) (.cons (r2.extend _) .nil))
  have nd : ((H0 ++ N1 ++ N2).length :: (f1 ++ (f2 ++ []))).Nodup := by
    rw [List.append_nil, List.nodup_cons, List.nodup_append]
    refine ⟨fun hm => ?_, nd1, nd2, fun a ha b hb e => ?_⟩
    · rcases List.mem_append.1 hm with h | h
      · have := (r1.extend N2).bound _ h; omega
      · have := r2.bound _ h; omega
    · subst e
      have := r1.bound a ha
      have := fr2 a hb
      omega
  rcases C50_typed (.list (.cls (lit "DatFile"))) _ _ _ _ rt (fun a _ => List.nodup_iff_count.1 nd a)
    (.list (by rintro t ht; rcases List.mem_cons.1 ht with rfl | ht; exact w1; rw [List.mem_singleton.1 ht]; exact w2)) cs (fun c hc => (hcs c hc).1) depth
    (Nat.le_trans (show Ann.reach rankOf (.list (.cls (lit "DatFile"))) ≤ 10 by decide +kernel) hd) s
    with h | ⟨H', t', fp', k1, k2, k3, _, k4, k5⟩
  · exact .inl h
  · have cell := k5 (fun c hc => (hcs c hc).2) _ rfl
    cases k4 with
    | list k4 =>
      obtain ⟨a, vs, fps, e1, rfl, hc, rs⟩ := k3.list_inv
      cases e1
      rw [cell] at hc
      have e2 : vs = [o1, o2] := by
        simp at hc; exact hc.symm
      subst e2
      cases rs with
      | cons q1 rs =>
        cases rs with
        | cons q2 rs =>
          cases rs
          obtain ⟨d1', hl1, hc1⟩ := (C48_fits_iff _).1 (k4 _ List.mem_cons_self)
          obtain ⟨d2', hl2, hc2⟩ := (C48_fits_iff _).1 (k4 _ (List.mem_cons_of_mem _ List.mem_cons_self))
          exact .inr ⟨H', _, _, d1', d2', k1, k2, hc1, hc2, fun n ver hn =>
            ⟨C47_save _ o1 _ _ q1 d1' hc1.carries hl1.sized n hn ver, C47_save _ o2 _ _ q2 d2' hc2.carries hl2.sized n hn ver⟩⟩

/-! ## non-vacuity -/

/-- `o.b = o.a; o.b.append(5)`: both attributes are the same list, which now has two elements. -/
example :
    (resultOf (runCommands 9 (.ref 0) [⟨[], .setAttr (lit "b"), .share [.attr (lit "a")]⟩, ⟨[.attr (lit "b")], .append, .new (.int 5)⟩]
        [.record (lit "X") [(lit "a", .ref 1), (lit "b", .ref 2)], .list [.int 1], .list [.int 2]] (ByteHandler.new []))).map (·.2.1) =
      some [.record (lit "X") [(lit "a", .ref 1), (lit "b", .ref 1)], .list [.int 1, .int 5], .list [.int 2]] := by decide +kernel

/-- `o.b = copy.deepcopy(o.a); o.b.append(5)`: `o.a` keeps its one element. -/
example :
    (resultOf (runCommands 9 (.ref 0) [⟨[], .setAttr (lit "b"), .copy [.attr (lit "a")]⟩, ⟨[.attr (lit "b")], .append, .new (.int 5)⟩]
        [.record (lit "X") [(lit "a", .ref 1), (lit "b", .ref 2)], .list [.int 1], .list [.int 2]] (ByteHandler.new []))).map (·.2.1) =
      some [.record (lit "X") [(lit "a", .ref 1), (lit "b", .ref 3)], .list [.int 1], .list [.int 2], .list [.int 1, .int 5]] := by decide +kernel

/-- A deep copy of `[x, x, (1, 2), (x,)]`: the copy has one list in the three places of `x`, the same tuple `(1, 2)`, a new tuple around
the new list. -/
example :
    (resultOf (HReader.deepcopy 3 (.ref 0) []
        [.list [.ref 1, .ref 1, .ref 2, .ref 3], .list [], .tuple [.int 1, .int 2], .tuple [.ref 1]] (ByteHandler.new []))).map (fun r => (r.1.1, r.2.1)) =
      some (.ref 4, [.list [.ref 1, .ref 1, .ref 2, .ref 3], .list [], .tuple [.int 1, .int 2], .tuple [.ref 1],
        .list [.ref 5, .ref 5, .ref 2, .ref 6], .list [], .tuple [.ref 5]]) := by decide +kernel

/-- Too little room; and a list that contains itself, which `C50_deepcopy` is not about, is copied, too. -/
example :
    errorOf (HReader.deepcopy 1 (.ref 0) [] [.list [.ref 1], .list []] (ByteHandler.new [])) = some .recursionError ∧
    (resultOf (HReader.deepcopy 2 (.ref 0) [] [.list [.ref 0]] (ByteHandler.new []))).map (fun r => (r.1.1, r.2.1)) =
      some (.ref 1, [.list [.ref 0], .list [.ref 1]]) := by decide +kernel

/-- The place `data.civs[i].units` has the declared type `list[Unit | None]`. -/
theorem leads_units (i : Nat) : Leads (Declares false) (.cls (lit "DatFile")) [.attr (lit "civs"), .item i, .attr (lit "units")]
    (.list (.opt (.cls (lit "Unit")))) :=
  .attr .DatFile (a := .list (.cls (lit "Civ"))) rfl <| .listItem <| .attr .Civ (a := .list (.opt (.cls (lit "Unit")))) rfl .here

/-- Well-typed programs: `data.civs[i].units[j] = copy.deepcopy(data.civs[k].units[j])`, the usual way to give a unit of one civilisation
to another, and `data.civs[i].name = data.civs[k].name`, where no copy is necessary. -/
example (i j k : Nat) : ∀ c ∈ ([
      ⟨[.attr (lit "civs"), .item i, .attr (lit "units")], .setItem j, .copy [.attr (lit "civs"), .item k, .attr (lit "units"), .item j]⟩,
      ⟨[.attr (lit "civs"), .item i], .setAttr (lit "name"), .share [.attr (lit "civs"), .item k, .attr (lit "name")]⟩] : List Command),
    c.Typed (Declares false) (.cls (lit "DatFile")) := by
  intro c hc
  simp only [List.mem_cons, List.not_mem_nil, or_false] at hc
  rcases hc with rfl | rfl
  · exact .setItem (leads_units i) (.copy (.listItem (p := [.attr (lit "civs"), .item k, .attr (lit "units")]) (leads_units k)) (.inl rfl))
  · exact .setAttr (c := lit "Civ") (.attr .DatFile (a := .list (.cls (lit "Civ"))) rfl <| .listItem .here) .Civ (a := .str) rfl
      (.share (.attr (p := [.attr (lit "civs"), .item k]) (c := lit "Civ")
        (.attr .DatFile (a := .list (.cls (lit "Civ"))) rfl <| .listItem .here) .Civ rfl) (.inl rfl) .str)

/-- Between two files: `data1.techs.append(copy.deepcopy(data2.techs[i]))`. -/
example (i : Nat) : ∀ c ∈ ([⟨[.item 0, .attr (lit "techs")], .append, .copy [.item 1, .attr (lit "techs"), .item i]⟩] : List Command),
    c.Typed (Declares false) (.list (.cls (lit "DatFile"))) ∧ c.place ≠ [] := by
  intro c hc
  simp only [List.mem_cons, List.not_mem_nil, or_false] at hc
  subst hc
  exact ⟨.append (a := .cls (lit "Tech")) (.listItem <| .attr .DatFile rfl .here)
    (.copy (.listItem (p := [.item 1, .attr (lit "techs")]) (.listItem <| .attr .DatFile rfl .here)) (.inl rfl)), List.cons_ne_nil _ _⟩

/-- Programs without a type: sharing a list is not `Separate`, sharing a number or copying a list is. -/
example :
    Separate 9 [⟨[], .setItem 0, .copy [.item 1]⟩, ⟨[], .setItem 0, .share [.item 2]⟩] (.list [.none, .list [], .int 3]) ∧
    ¬ Separate 9 [⟨[], .setItem 0, .share [.item 1]⟩] (.list [.none, .list [], .int 3]) := by
  constructor
  · refine ⟨fun p u h => (nomatch h), fun t' h => ?_⟩
    have e : t' = .list [.list [], .list [], .int 3] := (Except.ok.inj h).symm
    subst e
    refine ⟨fun p u h1 h2 => ?_, fun _ _ => trivial⟩
    cases h1
    rw [← Except.ok.inj h2]
    exact .int 3
  · intro h
    exact nomatch h.1 [.item 1] (.list []) rfl rfl

/-- One list in both attributes, as `C50_shared_statement` has it: the two places hold the same object. -/
example : ∃ fp, Rep [.record (lit "X") [(lit "a", .ref 1), (lit "b", .ref 1)], .list []] (.ref 0)
      (.obj (lit "X") [(lit "a", .list []), (lit "b", .list [])]) fp ∧
    Heap.follow [.record (lit "X") [(lit "a", .ref 1), (lit "b", .ref 1)], .list []] (.ref 0) [.attr (lit "a")] =
    Heap.follow [.record (lit "X") [(lit "a", .ref 1), (lit "b", .ref 1)], .list []] (.ref 0) [.attr (lit "b")] :=
  ⟨_, .obj rfl (.cons (.list rfl .nil) (.cons (.list rfl .nil) .nil)), rfl⟩

end Genie
