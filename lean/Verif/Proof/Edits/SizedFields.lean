import Verif.Proof.Edits.Keeps
import Verif.Proof.Edits.ObjectsBasic
/-! # Which edits keep the tuples of a file as long as they are -/

namespace Genie

/-- Tuples have their declared length. -/
def Node.Sized : (n : Node) → n.Obj → Prop
  | .file => DatFile.Sized
  | .record c => c.Sized

theorem mem_set_option {l : List (Option α)} {i : Nat} {y z : α} (h : some z ∈ l.set i (some y)) : z = y ∨ some z ∈ l := by
  rcases List.mem_or_eq_of_mem_set h with h | h
  · exact .inr h
  · exact .inl (Option.some.inj h)

theorem Slot.sized_get {a b : Node} (s : Slot a b) (x : a.Obj) (m : b.Obj) (hx : a.Sized x) (hg : s.get x = some m) : b.Sized m := by
  cases s
  case Unit_creatable =>
    exact (show Genie.Unit.Sized x from hx).2.2.2.2.1 m hg
  case Unit_building =>
    exact (show Genie.Unit.Sized x from hx).2.2.2.2.2 m hg
  case Civ_units i =>
    exact (show Genie.Civ.Sized x from hx) m (List.mem_of_getElem? (slotAt_some hg))
  case DatFile_civs i =>
    exact (show Genie.DatFile.Sized x from hx) m (List.mem_of_getElem? hg)
  all_goals exact trivial

theorem Slot.sized_set {a b : Node} (s : Slot a b) (x : a.Obj) (y : b.Obj) (hx : a.Sized x) (hy : b.Sized y) : a.Sized (s.set x y) := by
  cases s
  case Unit_creatable =>
    obtain ⟨h1, h2, h3, h4, h5, h6⟩ := (show Genie.Unit.Sized x from hx)
    exact ⟨h1, h2, h3, h4, fun c hc => (by cases Option.some.inj hc; exact hy), h6⟩
  case Unit_building =>
    obtain ⟨h1, h2, h3, h4, h5, h6⟩ := (show Genie.Unit.Sized x from hx)
    exact ⟨h1, h2, h3, h4, h5, fun c hc => (by cases Option.some.inj hc; exact hy)⟩
  case Civ_units i =>
    intro u hu
    rcases mem_set_option hu with rfl | h
    · exact hy
    · exact (show Genie.Civ.Sized x from hx) u h
  case DatFile_civs i =>
    intro c hc
    rcases List.mem_or_eq_of_mem_set hc with h | rfl
    · exact (show Genie.DatFile.Sized x from hx) c h
    · exact hy
  all_goals first | exact trivial | exact hx

theorem Place.sized_get {a b : Node} (p : Place a b) (x : a.Obj) (m : b.Obj) (hx : a.Sized x) (hg : p.get x = some m) : b.Sized m := by
  induction p with
  | here => cases hg; exact hx
  | step s p ih =>
    simp only [Place.get] at hg
    cases e : s.get x with
    | none => rw [e] at hg; cases hg
    | some k => rw [e] at hg; exact ih k m (s.sized_get x k hx e) hg

theorem Place.sized_set {a b : Node} (p : Place a b) (x : a.Obj) (y : b.Obj) (hx : a.Sized x) (hy : b.Sized y) : a.Sized (p.set x y) := by
  induction p with
  | here => exact hy
  | step s p ih =>
    simp only [Place.set]
    cases e : s.get x with
    | none => exact hx
    | some k => exact s.sized_set x _ hx (ih k y (s.sized_get x k hx e) hy)

theorem intFields_sized (v : Version) (n : Node) : ∀ f ∈ n.intFields v, ∀ x i, n.Sized x → n.Sized (f.set x i) := by
  cases n with
  | file => repeat (first | exact forall_nil | refine forall_cons (fun _ _ h => h) ?_ | refine forall_append ?_ (forall_ite fun _ => ?_))
  | record c =>
    cases c
    case Creatable | Building | Unit | Civ =>
      all_goals repeat (first | exact forall_nil | refine forall_cons (fun _ _ h => h) ?_ | refine forall_append ?_ (forall_ite fun _ => ?_))
    all_goals exact fun _ _ _ _ _ => trivial

theorem floatFields_sized (v : Version) (n : Node) : ∀ f ∈ n.floatFields v, ∀ x i, n.Sized x → n.Sized (f.set x i) := by
  cases n with
  | file => repeat (first | exact forall_nil | refine forall_cons (fun _ _ h => h) ?_ | refine forall_append ?_ (forall_ite fun _ => ?_))
  | record c =>
    cases c
    case Creatable | Building | Unit | Civ =>
      all_goals repeat (first | exact forall_nil | refine forall_cons (fun _ _ h => h) ?_ | refine forall_append ?_ (forall_ite fun _ => ?_))
    all_goals exact fun _ _ _ _ _ => trivial

theorem textFields_sized (v : Version) (n : Node) : ∀ f ∈ n.textFields v, ∀ x i, n.Sized x → n.Sized (f.set x i) := by
  cases n with
  | file => repeat (first | exact forall_nil | refine forall_cons (fun _ _ h => h) ?_ | refine forall_append ?_ (forall_ite fun _ => ?_))
  | record c =>
    cases c
    case Creatable | Building | Unit | Civ =>
      all_goals repeat (first | exact forall_nil | refine forall_cons (fun _ _ h => h) ?_ | refine forall_append ?_ (forall_ite fun _ => ?_))
    all_goals exact fun _ _ _ _ _ => trivial

end Genie
