import Verif.Proof.Heap.ReprTyped
import Verif.Props.C57_TypedScripts
import Verif.Props.C52_Equality
import Verif.Props.C41_ValidJson
/-!
# C59: `repr` and `print`

Every class is a dataclass, so objects can be shown: `print(data.civs[0].units[4])`.  The model of `repr` is in `Verif/Model/HeapRepr.lean`, what it
should show in `Verif/Spec/Repr.lean`.
-/

namespace Genie
open HReader ObjTree

/-- `repr(o)` of any object that fits the annotation `A`, however its parts are shared: it does not raise, given room for as many nested calls as the
object is deep, and shows the value — nothing else of what is in memory. -/
theorem C59_repr (digits : Json.FloatRepr) (printable : Nat → Bool) (A : Ann) (H : Heap) (v : HVal) (t : ObjTree) (fp : List Nat) (r : Rep H v t fp)
    (ht : Suits (Declares false) A t) (depth : Nat) (hd : t.height ≤ depth) : W.repr digits printable H depth [] v = .ok (text digits printable t) :=
  W.repr_run digits printable depth r ht.exact hd (fun _ h => nomatch h)

/-- Two texts agree exactly if the values agree at every place, where only the payload and sign of NaNs are not shown.  In particular `2` and
`2.0`, `0.0` and `-0.0`, a list and a tuple, `'None'` and `None` look different. -/
theorem C59_determines (digits : Json.FloatRepr) (hr : digits.Lawful) (printable : Nat → Bool) (A A' : Ann) (H H' : Heap) (v v' : HVal) (t t' : ObjTree)
    (fp fp' : List Nat) (r : Rep H v t fp) (r' : Rep H' v' t' fp') (ht : Suits (Declares false) A t) (ht' : Suits (Declares false) A' t')
    (hc : Codes t) (hc' : Codes t') (depth : Nat) (hd : t.height ≤ depth) (hd' : t'.height ≤ depth) :
    W.repr digits printable H depth [] v = W.repr digits printable H' depth [] v' ↔ t.forgetNaN = t'.forgetNaN := by
  rw [C59_repr digits printable A H v t fp r ht depth hd, C59_repr digits printable A' H' v' t' fp' r' ht' depth hd']
  rw [← PyRepr.text_eq_iff hr printable (printable_of t ht.exact hc) (printable_of t' ht'.exact hc')]
  exact ⟨fun h => Except.ok.inj h, fun h => by rw [h]⟩

/-- If there are no NaNs, objects that look alike have the same value. -/
theorem C59_determines_without_nan (digits : Json.FloatRepr) (hr : digits.Lawful) (printable : Nat → Bool) (A A' : Ann) (H H' : Heap) (v v' : HVal)
    (t t' : ObjTree) (fp fp' : List Nat) (r : Rep H v t fp) (r' : Rep H' v' t' fp') (ht : Suits (Declares false) A t)
    (ht' : Suits (Declares false) A' t') (hc : Codes t) (hc' : Codes t') (hn : NaNFree t) (hn' : NaNFree t') (depth : Nat) (hd : t.height ≤ depth)
    (hd' : t'.height ≤ depth) : W.repr digits printable H depth [] v = W.repr digits printable H' depth [] v' ↔ t = t' := by
  rw [C59_determines digits hr printable A A' H H' v v' t t' fp fp' r r' ht ht' hc hc' depth hd hd', forgetNaN_of t ht.exact hn,
    forgetNaN_of t' ht'.exact hn']

/-- `repr(a) == repr(b)` implies `a == b`, if there are no NaNs (the converse is false: `2 == 2.0`). -/
theorem C59_alike_equal (digits : Json.FloatRepr) (hr : digits.Lawful) (printable : Nat → Bool) (A B : Ann) (H : Heap) (a b : HVal) (t u : ObjTree)
    (f g : List Nat) (ra : Rep H a t f) (rb : Rep H b u g) (ht : Suits (Declares false) A t) (hu : Suits (Declares false) B u) (hc : Codes t)
    (hc' : Codes u) (hn : NaNFree t) (hn' : NaNFree u) (depth : Nat) (hd : t.height ≤ depth) (hd' : u.height ≤ depth)
    (h : W.repr digits printable H depth [] a = W.repr digits printable H depth [] b) (same : ObjPath → Bool) : W.eq H depth same a b = .ok true := by
  have e := (C59_determines_without_nan digits hr printable A B H H a b t u f g ra rb ht hu hc hc' hn hn' depth hd hd').1 h
  subst e
  obtain ⟨r, k1, k2⟩ := C52_equal A A H a b t t f g ra rb ht ht same (.inl hn) depth hd
  rw [k1, k2.2 (Equal.refl t hn)]

/-- A deep copy looks like its original, which looks as before. -/
theorem C59_copy (digits : Json.FloatRepr) (printable : Nat → Bool) (A : Ann) (H H' : Heap) (v w : HVal) (M : Memo) (t : ObjTree) (fp : List Nat)
    (r : Rep H v t fp) (ht : Suits (Declares false) A t) (n : Nat) (s s' : ByteHandler) (h : deepcopy n v [] H s = .ok ((w, M), H', s')) (depth : Nat)
    (hd : t.height ≤ depth) :
    W.repr digits printable H' depth [] w = W.repr digits printable H depth [] v ∧
      W.repr digits printable H' depth [] v = W.repr digits printable H depth [] v := by
  rcases C50_deepcopy H v t fp r n s with ⟨e, _⟩ | ⟨H1, M1, w1, κ, e, _, r1, r2, _⟩
  · rw [h] at e; cases e
  · rw [h] at e
    have e := Except.ok.inj e
    have e1 : w = w1 := (Prod.mk.inj (Prod.mk.inj e).1).1
    have e2 : H' = H1 := (Prod.mk.inj (Prod.mk.inj e).2).1
    subst e1 e2
    rw [C59_repr digits printable A _ _ _ _ r ht depth hd, C59_repr digits printable A _ _ _ _ r1 ht depth hd,
      C59_repr digits printable A _ _ _ _ r2 ht depth hd]
    exact ⟨rfl, rfl⟩

/-- Files: `repr(DatFile.parse(…))` does not fail.  Two loaded files look alike exactly if they hold the same values, up to payload and sign of
NaNs; if there are no NaNs, they are the same data and are saved as the same bytes. -/
theorem C59_loads (digits : Json.FloatRepr) (hr : digits.Lawful) (printable : Nat → Bool) (H H1 K K1 : Heap) (s1 s1' s2 s2' : ByteHandler) (a b : HVal)
    (h1 : DatFile.build H s1 = .ok (a, H1, s1')) (h2 : DatFile.build K s2 = .ok (b, K1, s2')) (depth : Nat) (hd : 9 ≤ depth) :
    ∃ d1 d2 x1 x2, DatFile.fromBytes s1 = .ok (d1, s1') ∧ DatFile.fromBytes s2 = .ok (d2, s2') ∧
      W.repr digits printable H1 depth [] a = .ok x1 ∧ W.repr digits printable K1 depth [] b = .ok x2 ∧
      (x1 = x2 ↔ (d1.object d1.old).forgetNaN = (d2.object d2.old).forgetNaN) ∧
      (NaNFree (d1.object d1.old) → NaNFree (d2.object d2.old) → x1 = x2 → d1 = d2) := by
  obtain ⟨d1, N1, f1, hd1, rfl, r1, nd1, fr1⟩ := load_value h1
  obtain ⟨d2, N2, f2, hd2, rfl, r2, nd2, fr2⟩ := load_value h2
  rw [← DatFile.old_parsed hd1] at r1
  rw [← DatFile.old_parsed hd2] at r2
  have w1 := (C48_fits_iff _).2 ⟨d1, DatFile.lengths (C13_parsed_wellformed _ _ _ hd1), DatFile.converts d1.old d1⟩
  have w2 := (C48_fits_iff _).2 ⟨d2, DatFile.lengths (C13_parsed_wellformed _ _ _ hd2), DatFile.converts d2.old d2⟩
  have e1 := C59_repr digits printable _ _ _ _ _ r1 w1 depth (Nat.le_trans (C52_room _ w1) hd)
  have e2 := C59_repr digits printable _ _ _ _ _ r2 w2 depth (Nat.le_trans (C52_room _ w2) hd)
  have key := PyRepr.text_eq_iff hr printable (printable_of _ w1.exact (DatFile.codes d1.old (C13_parsed_wellformed _ _ _ hd1)))
    (printable_of _ w2.exact (DatFile.codes d2.old (C13_parsed_wellformed _ _ _ hd2)))
  refine ⟨d1, d2, _, _, hd1, hd2, e1, e2, key, fun n1 n2 h => ?_⟩
  have k := key.1 h
  rw [forgetNaN_of _ w1.exact n1, forgetNaN_of _ w2.exact n2] at k
  refine C34_tree_determines d1 d2 ?_
  unfold DatFile.tree
  rw [← DatFile.object_asdict, ← DatFile.object_asdict, k]

/-- Loading the same bytes again gives an object that looks the same. -/
theorem C59_same_bytes (digits : Json.FloatRepr) (printable : Nat → Bool) (H H1 K K1 : Heap) (s s1' s2' : ByteHandler) (a b : HVal)
    (h1 : DatFile.build H s = .ok (a, H1, s1')) (h2 : DatFile.build K s = .ok (b, K1, s2')) (depth : Nat) (hd : 9 ≤ depth) :
    ∃ x, W.repr digits printable H1 depth [] a = .ok x ∧ W.repr digits printable K1 depth [] b = .ok x := by
  obtain ⟨d1, N1, f1, hd1, rfl, r1, nd1, fr1⟩ := load_value h1
  obtain ⟨d2, N2, f2, hd2, rfl, r2, nd2, fr2⟩ := load_value h2
  rw [hd1] at hd2
  obtain ⟨rfl, rfl⟩ := Prod.mk.inj (Except.ok.inj hd2)
  have w := (C48_fits_iff _).2 ⟨d1, DatFile.lengths (C13_parsed_wellformed _ _ _ hd1), DatFile.converts (decide (s1'.version.num < 84)) d1⟩
  exact ⟨_, C59_repr digits printable _ _ _ _ _ r1 w depth (Nat.le_trans (C52_room _ w) hd),
    C59_repr digits printable _ _ _ _ _ r2 w depth (Nat.le_trans (C52_room _ w) hd)⟩

/-- In a script that a type checker accepts (C57) every instance of a class of this package can be shown, at any time; nine nested calls suffice. -/
theorem C59_typed (digits : Json.FloatRepr) (printable : Nat → Bool) (M : Memory) (types : List Ann) (h : M.Typed (Declares false) types) (o : Nat)
    (c : PyStr) (ho : types[o]? = some (.cls c)) (depth : Nat) (hn : 9 ≤ depth) :
    ∃ t fp, Rep M.heap (named M.names o) t fp ∧ Suits (Declares false) (.cls c) t ∧
      W.repr digits printable M.heap depth [] (named M.names o) = .ok (text digits printable t) := by
  obtain ⟨t, fp, r, ht⟩ := C57_types_mean M types h o _ ho
  refine ⟨t, fp, r, ht, C59_repr digits printable _ _ _ _ _ r ht depth (Nat.le_trans (ht.height Declares.reach) (Nat.le_trans ?_ hn))⟩
  exact rankOf_le c

/-- Whatever is in memory — objects that contain themselves, too — `repr` comes to an end: there is no endless recursion, the number of nested
calls is at most the number of objects and one. -/
theorem C59_no_loop (digits : Json.FloatRepr) (printable : Nat → Bool) (H : Heap) (v : HVal) (depth : Nat) (hd : H.length < depth) :
    W.repr digits printable H depth [] v ≠ .error .recursionError :=
  W.repr_no_loop digits printable H depth [] v .nil (fun _ h => nomatch h) (by simpa using hd)

/-! ## non-vacuity -/

/-- The assumption about the digits can be met. -/
example : ∃ digits : Json.FloatRepr, digits.Lawful := ⟨_, Json.toyRepr0_lawful⟩

/-- Digits for the examples: they do not matter. -/
def noDigits : Json.FloatRepr := fun _ => lit "1.5"

/-- `[None, -3, "it's", 'both \' and "', 'a\\b\n\x07', 1.5, nan, -inf, (1,), (1, 2), []]`. -/
example :
    let H : Heap := [.list [.none, .int (-3), .str (lit "it's"), .str (lit "both ' and \""), .str (lit "a\\b\n" ++ [7]), .float ⟨0x3FF8000000000000⟩,
      .float ⟨0x7FF8000000000000⟩, .float ⟨0xFFF0000000000000⟩, .ref 1, .ref 2, .ref 3], .tuple [.int 1], .tuple [.int 1, .int 2], .list []]
    resultOf (W.repr noDigits (fun _ => false) H 3 [] (.ref 0)) =
      some (lit "[None, -3, \"it's\", 'both \\' and \"', 'a\\\\b\\n\\x07', 1.5, nan, -inf, (1,), (1, 2), []]") := by
  set_option exponentiation.threshold 2000 in decide +kernel

/-- An instance; a list that contains itself, and an instance that contains itself. -/
example :
    let H : Heap := [.record (lit "ResearchResourceCost") [(lit "flag", .int 1), (lit "type", .int 0), (lit "amount", .int 69)],
      .list [.ref 1, .ref 2], .record (lit "ResearchResourceCost") [(lit "type", .ref 1), (lit "amount", .ref 2), (lit "flag", .ref 0)]]
    resultOf (W.repr noDigits (fun _ => false) H 4 [] (.ref 0)) = some (lit "ResearchResourceCost(type=0, amount=69, flag=1)") ∧
    resultOf (W.repr noDigits (fun _ => false) H 4 [] (.ref 1)) =
      some (lit "[[...], ResearchResourceCost(type=[...], amount=..., flag=ResearchResourceCost(type=0, amount=69, flag=1))]") := by
  set_option exponentiation.threshold 2000 in decide +kernel

/-- The sample file of version 8.8 is loaded and shown; its text is that of its value. -/
example : ∃ (bs : Bytes) (H1 : Heap) (a : HVal) (s1 : ByteHandler) (x : PyStr), DatFile.build [] (ByteHandler.new bs) = .ok (a, H1, s1) ∧
    W.repr noDigits (fun _ => false) H1 9 [] a = .ok x ∧ x = text noDigits (fun _ => false) ((Sample.datFile .VER_88).object (Sample.datFile .VER_88).old) ∧
    NaNFree ((Sample.datFile .VER_88).object (Sample.datFile .VER_88).old) := by
  have hw := Sample.datFile_wf .VER_88 (by decide)
  obtain ⟨bs, _, h⟩ := C12_datfile_round_trip_file _ ⟨_, hw⟩
  obtain ⟨s1, hr, _⟩ := h []
  rw [List.append_nil] at hr
  obtain ⟨a, N1, f1, b1, r1, _, fr1⟩ := (C45_load_builds [] (ByteHandler.new bs)).2 _ s1 hr
  rw [← DatFile.old_parsed hr] at r1
  have w := (C48_fits_iff _).2 ⟨_, DatFile.lengths hw, DatFile.converts (Sample.datFile .VER_88).old (Sample.datFile .VER_88)⟩
  exact ⟨bs, _, a, s1, _, b1, C59_repr noDigits _ _ _ _ _ _ r1 w 9 (C52_room _ w), rfl, ObjTree.nanFree_iff (by decide +kernel)⟩

end Genie
