import Verif.Proof.Heap.Equality
import Verif.Props.C50_Copies
/-!
# C52: `==`

Every class is a dataclass, so objects can be compared: `data == DatFile.parse(…)`.  The model of `==` is in `Verif/Model/HeapEq.lean`, what it
should say in `Verif/Spec/Equality.lean`.
-/

namespace Genie
open HReader ObjTree

/-- `a == b`, for any two objects that fit the annotations `A` and `B`, in any sharing with each other, where there is no NaN in `a` or nothing
of `a` is the same object as anything in `b` (`same p = false`: not even floats).  It does not raise, given room for as many nested
comparisons as `a` is deep, and it is `True` exactly if the values are equal at every place. -/
theorem C52_equal (A B : Ann) (H : Heap) (a b : HVal) (t u : ObjTree) (f g : List Nat) (ra : Rep H a t f) (rb : Rep H b u g)
    (ht : Suits (Declares false) A t) (hu : Suits (Declares false) B u) (same : ObjPath → Bool)
    (hs : NaNFree t ∨ ((∀ p, same p = false) ∧ ∀ x ∈ f, x ∉ g)) (depth : Nat) (hd : t.height ≤ depth) :
    ∃ r, W.eq H depth same a b = .ok r ∧ (r = true ↔ Equal t u) :=
  W.eq_run depth ra rb hd ht.exact hu.exact same hs

/-- For `DatFile`s there is room enough with nine nested comparisons. -/
theorem C52_room (t : ObjTree) (h : Suits (Declares false) (.cls (lit "DatFile")) t) : t.height ≤ 9 :=
  Nat.le_trans (h.height Declares.reach) (show Ann.reach rankOf (.cls (lit "DatFile")) ≤ 9 by decide +kernel)

/-- `DatFile.parse(…) == DatFile.parse(…)`: what `DatFile.from_bytes` returns for two byte strings compares equal exactly if the values agree
at every place; a NaN is not equal to anything. -/
theorem C52_loads (H H1 H2 : Heap) (s1 s1' s2 s2' : ByteHandler) (a b : HVal) (h1 : DatFile.build H s1 = .ok (a, H1, s1'))
    (h2 : DatFile.build H1 s2 = .ok (b, H2, s2')) (depth : Nat) (hd : 9 ≤ depth) :
    ∃ d1 d2 r, DatFile.fromBytes s1 = .ok (d1, s1') ∧ DatFile.fromBytes s2 = .ok (d2, s2') ∧ W.eq H2 depth (fun _ => false) a b = .ok r ∧
      (r = true ↔ Equal (d1.object (decide (s1'.version.num < 84))) (d2.object (decide (s2'.version.num < 84)))) := by
  obtain ⟨d1, N1, f1, hd1, rfl, r1, nd1, fr1⟩ := load_value h1
  obtain ⟨d2, N2, f2, hd2, rfl, r2, nd2, fr2⟩ := load_value h2
  have w1 := (C48_fits_iff _).2 ⟨d1, DatFile.lengths (C13_parsed_wellformed _ _ _ hd1), DatFile.converts (decide (s1'.version.num < 84)) d1⟩
  have w2 := (C48_fits_iff _).2 ⟨d2, DatFile.lengths (C13_parsed_wellformed _ _ _ hd2), DatFile.converts (decide (s2'.version.num < 84)) d2⟩
  obtain ⟨r, e1, e2⟩ := C52_equal _ _ _ a b _ _ f1 f2 (r1.extend N2) r2 w1 w2 (fun _ => false) (.inr ⟨fun _ => rfl, fun x hx hx' => by
    have := r1.bound x hx
    have := fr2 x hx'
    omega⟩) depth (Nat.le_trans (C52_room _ w1) hd)
  exact ⟨d1, d2, r, hd1, hd2, e1, e2⟩

/-- Loading the same bytes twice: the objects are equal exactly if there is no NaN in them. -/
theorem C52_same_bytes (H H1 H2 : Heap) (s s1' s2' : ByteHandler) (a b : HVal) (h1 : DatFile.build H s = .ok (a, H1, s1'))
    (h2 : DatFile.build H1 s = .ok (b, H2, s2')) (depth : Nat) (hd : 9 ≤ depth) :
    ∃ d r, DatFile.fromBytes s = .ok (d, s1') ∧ W.eq H2 depth (fun _ => false) a b = .ok r ∧
      (r = true ↔ NaNFree (d.object (decide (s1'.version.num < 84)))) := by
  obtain ⟨d1, d2, r, e1, e2, e3, e4⟩ := C52_loads H H1 H2 s s1' s s2' a b h1 h2 depth hd
  rw [e1] at e2
  have e2 := Prod.mk.inj (Except.ok.inj e2)
  obtain ⟨rfl, rfl⟩ := e2
  exact ⟨d1, r, e1, e3, e4.trans (Equal.self_iff _)⟩

/-- Load, save, load what was saved: the two objects are equal exactly if there is no NaN in them. -/
theorem C52_round_trip (H H1 H2 : Heap) (s s1' s2' : ByteHandler) (a b : HVal) (bs : Bytes) (h1 : DatFile.build H s = .ok (a, H1, s1'))
    (n : Nat) (hn : 5 ≤ n) (ver : Version) (hs : W.toBytes H1 n a ver = .ok bs) (h2 : DatFile.build H1 (ByteHandler.new bs) = .ok (b, H2, s2'))
    (depth : Nat) (hd : 9 ≤ depth) :
    ∃ d r, DatFile.fromBytes s = .ok (d, s1') ∧ W.eq H2 depth (fun _ => false) a b = .ok r ∧ (r = true ↔ NaNFree (d.object d.old)) := by
  obtain ⟨d1, d2, r, e1, e2, e3, e4⟩ := C52_loads H H1 H2 s s1' _ s2' a b h1 h2 depth hd
  have hb : d1.toBytes = .ok bs := by
    obtain ⟨d1', N, fp, hd', rfl, rr, nd, fr⟩ := load_value h1
    rw [e1] at hd'
    obtain ⟨rfl, _⟩ := Prod.mk.inj (Except.ok.inj hd')
    rw [← C47_save _ a _ fp rr d1 (DatFile.converts _ d1).carries (DatFile.lengths (C13_parsed_wellformed _ _ _ e1)).sized n hn ver]
    exact hs
  obtain ⟨h3, k⟩ := (C13_round_trips_iff d1 bs hb).2 ⟨_, C13_parsed_wellformed _ _ _ e1⟩
  rw [e2] at k
  obtain ⟨rfl, rfl⟩ := Prod.mk.inj (Except.ok.inj k)
  refine ⟨_, r, e1, e3, e4.trans ?_⟩
  rw [← DatFile.old_parsed e1, ← DatFile.old_parsed e2]
  exact Equal.self_iff _

/-- A copy is equal to its original, in both directions, if there is no NaN in it; and so is the object itself. -/
theorem C52_copy (A : Ann) (H H' : Heap) (v w : HVal) (M : Memo) (t : ObjTree) (fp : List Nat) (r : Rep H v t fp) (ht : Suits (Declares false) A t)
    (hn : NaNFree t) (n : Nat) (s s' : ByteHandler) (h : deepcopy n v [] H s = .ok ((w, M), H', s')) (same : ObjPath → Bool) (depth : Nat)
    (hd : t.height ≤ depth) :
    W.eq H' depth same v w = .ok true ∧ W.eq H' depth same w v = .ok true ∧ W.eq H' depth same v v = .ok true := by
  rcases C50_deepcopy H v t fp r n s with ⟨e, _⟩ | ⟨H1, M1, w1, κ, e, _, r1, r2, _⟩
  · rw [h] at e; cases e
  · rw [h] at e
    have e := Except.ok.inj e
    have e1 : w = w1 := (Prod.mk.inj (Prod.mk.inj e).1).1
    have e2 : H' = H1 := (Prod.mk.inj (Prod.mk.inj e).2).1
    subst e1 e2
    have go : ∀ {x y f g}, Rep H' x t f → Rep H' y t g → W.eq H' depth same x y = .ok true := by
      intro x y f g rx ry
      obtain ⟨r, k1, k2⟩ := C52_equal A A H' x y t t f g rx ry ht ht same (.inl hn) depth hd
      rw [k1, k2.2 (Equal.refl t hn)]
    exact ⟨go r1 r2, go r2 r1, go r1 r1⟩

/-- Equal files are written alike: if `a == b` — loaded, or edited by a program that a type checker accepts — and there is no negative zero in
them (it is equal to the positive one, but has other bytes), `a.to_bytes(…)` and `b.to_bytes(…)` give the same bytes or raise the same. -/
theorem C52_equal_bytes (H : Heap) (a b : HVal) (t u : ObjTree) (f g : List Nat) (ra : Rep H a t f) (rb : Rep H b u g)
    (ht : Suits (Declares false) (.cls (lit "DatFile")) t) (hu : Suits (Declares false) (.cls (lit "DatFile")) u) (same : ObjPath → Bool)
    (hs : NaNFree t ∨ ((∀ p, same p = false) ∧ ∀ x ∈ f, x ∉ g)) (nt : NoNegativeZero t) (nu : NoNegativeZero u)
    (depth : Nat) (he : W.eq H depth same a b = .ok true) (hd : 9 ≤ depth) (n : Nat) (hn : 5 ≤ n) (v v' : Version) :
    W.toBytes H n a v = W.toBytes H n b v' := by
  obtain ⟨r, e1, e2⟩ := C52_equal _ _ H a b t u f g ra rb ht hu same hs depth (Nat.le_trans (C52_room _ ht) hd)
  rw [he] at e1
  cases e1
  have eq := e2.1 rfl
  obtain ⟨d1, l1, c1⟩ := (C48_fits_iff _).1 ht
  obtain ⟨d2, l2, c2⟩ := (C48_fits_iff _).1 hu
  have key := HasType.equal Declares.oneDef Declares.names (DatFile.typedNow l1) (DatFile.typedNow l2) c1 c2 eq nt nu
  rw [← key] at c2
  rw [C47_save H a t f ra d1 c1.carries l1.sized n hn v, C47_save H b u g rb d1 c2.carries l1.sized n hn v']

/-- Two loaded files that compare equal and hold no negative zero are the same data: they are saved as the same bytes. -/
theorem C52_equal_files (H H1 H2 : Heap) (s1 s1' s2 s2' : ByteHandler) (a b : HVal) (h1 : DatFile.build H s1 = .ok (a, H1, s1'))
    (h2 : DatFile.build H1 s2 = .ok (b, H2, s2')) (depth : Nat) (hd : 9 ≤ depth) (he : W.eq H2 depth (fun _ => false) a b = .ok true) :
    ∃ d1 d2, DatFile.fromBytes s1 = .ok (d1, s1') ∧ DatFile.fromBytes s2 = .ok (d2, s2') ∧
      (NoNegativeZero (d1.object d1.old) → NoNegativeZero (d2.object d2.old) → d1 = d2) := by
  obtain ⟨d1, d2, r, e1, e2, e3, e4⟩ := C52_loads H H1 H2 s1 s1' s2 s2' a b h1 h2 depth hd
  rw [he] at e3
  cases e3
  have eq := e4.1 rfl
  refine ⟨d1, d2, e1, e2, fun n1 n2 => ?_⟩
  rw [← DatFile.old_parsed e1, ← DatFile.old_parsed e2] at eq
  have w1 := C13_parsed_wellformed _ _ _ e1
  have w2 := C13_parsed_wellformed _ _ _ e2
  have key := HasType.equal Declares.oneDef Declares.names (DatFile.typedNow (DatFile.lengths w1)) (DatFile.typedNow (DatFile.lengths w2))
    (DatFile.converts d1.old d1) (DatFile.converts d2.old d2) eq n1 n2
  obtain ⟨d1', N1, f1, hd1, rfl, r1, nd1, fr1⟩ := load_value h1
  obtain ⟨d2', N2, f2, hd2, rfl, r2, nd2, fr2⟩ := load_value h2
  rw [e1] at hd1
  rw [e2] at hd2
  obtain ⟨rfl, _⟩ := Prod.mk.inj (Except.ok.inj hd1)
  obtain ⟨rfl, _⟩ := Prod.mk.inj (Except.ok.inj hd2)
  have c2 := (DatFile.converts (decide (s2'.version.num < 84)) d2)
  rw [← key] at c2
  have b1 := C47_save _ b _ f2 r2 d1 c2.carries (DatFile.lengths w1).sized 5 (Nat.le_refl _) .UNDEFINED
  have b2 := C47_save _ b _ f2 r2 d2 (DatFile.converts _ d2).carries (DatFile.lengths w2).sized 5 (Nat.le_refl _) .UNDEFINED
  obtain ⟨bs, x1, y1, z1⟩ := C14_parsed_can_be_saved _ _ _ e1
  obtain ⟨bs', x2, y2, z2⟩ := C14_parsed_can_be_saved _ _ _ e2
  rw [b1, x1, x2] at b2
  cases Except.ok.inj b2
  rw [z1] at z2
  exact (Prod.mk.inj (Except.ok.inj z2)).1

/-! ## non-vacuity -/

/-- `0.0 == -0.0`, `2 == 2.0`, NaN is not equal to itself unless it is the same object in a list; `[1] != (1,)`; objects of different classes
are different. -/
example :
    let H : Heap := [.list [.float ⟨0⟩, .int 2], .list [.float ⟨0x8000000000000000⟩, .float ⟨0x4000000000000000⟩], .list [.float ⟨0x7FF8000000000000⟩],
      .list [.float ⟨0x7FF8000000000000⟩], .list [.int 1], .tuple [.int 1], .record (lit "SoundItem") [], .record (lit "Sound") []]
    resultOf (W.eq H 2 (fun _ => false) (.ref 0) (.ref 1)) = some true ∧ resultOf (W.eq H 2 (fun _ => false) (.ref 2) (.ref 3)) = some false ∧
    resultOf (W.eq H 2 (fun _ => true) (.ref 2) (.ref 3)) = some true ∧ resultOf (W.eq H 2 (fun _ => false) (.ref 2) (.ref 2)) = some true ∧
    resultOf (W.eq H 2 (fun _ => false) (.ref 4) (.ref 5)) = some false ∧ resultOf (W.eq H 2 (fun _ => false) (.ref 6) (.ref 7)) = some false ∧
    errorOf (W.eq H 1 (fun _ => false) (.ref 0) (.ref 1)) = some .recursionError := by
  set_option exponentiation.threshold 2000 in decide +kernel

/-- Instances are compared by the declared fields only: an additional attribute does not count, a field does. -/
example :
    let H : Heap := [.record (lit "ResearchResourceCost") [(lit "type", .int 0), (lit "amount", .int 69), (lit "flag", .int 1)],
      .record (lit "ResearchResourceCost") [(lit "type", .int 0), (lit "amount", .int 69), (lit "flag", .int 1), (lit "note", .int 7)],
      .record (lit "ResearchResourceCost") [(lit "type", .int 0), (lit "amount", .int 70), (lit "flag", .int 1)]]
    resultOf (W.eq H 2 (fun _ => false) (.ref 0) (.ref 1)) = some true ∧ resultOf (W.eq H 2 (fun _ => false) (.ref 0) (.ref 2)) = some false := by
  set_option exponentiation.threshold 2000 in decide +kernel

/-- The sample file of version 8.8, loaded twice: the two objects are equal. -/
example : ∃ (bs : Bytes) (H1 H2 : Heap) (a b : HVal) (s1 s2 : ByteHandler), DatFile.build [] (ByteHandler.new bs) = .ok (a, H1, s1) ∧
    DatFile.build H1 (ByteHandler.new bs) = .ok (b, H2, s2) ∧ a ≠ b ∧ W.eq H2 9 (fun _ => false) a b = .ok true := by
  have hw := Sample.datFile_wf .VER_88 (by decide)
  obtain ⟨bs, _, h⟩ := C12_datfile_round_trip_file _ ⟨_, hw⟩
  obtain ⟨s1, hr, _⟩ := h []
  rw [List.append_nil] at hr
  obtain ⟨a, N1, f1, b1, r1, _, fr1⟩ := (C45_load_builds [] (ByteHandler.new bs)).2 _ s1 hr
  obtain ⟨b, N2, f2, b2, r2, _, fr2⟩ := (C45_load_builds ([] ++ N1) (ByteHandler.new bs)).2 _ s1 hr
  obtain ⟨d, r, e1, e2, e3⟩ := C52_same_bytes _ _ _ _ _ _ a b b1 b2 9 (Nat.le_refl _)
  rw [hr] at e1
  obtain ⟨rfl, -⟩ := Prod.mk.inj (Except.ok.inj e1)
  refine ⟨bs, _, _, a, b, s1, s1, b1, b2, ?_, ?_⟩
  · rintro rfl
    obtain ⟨x, vs, fps, rfl, rfl, -⟩ := r1.obj_inv
    have := fr2 x r2.head_mem
    have := r1.bound x r1.head_mem
    omega
  · rw [e2, e3.2 (ObjTree.nanFree_iff ?_)]
    rw [show decide (s1.version.num < 84) = (Sample.datFile .VER_88).old from (DatFile.old_parsed hr).symm]
    decide +kernel

end Genie
