import Verif.Proof.ClassesFails
import Verif.Proof.Records.Sizes
import Verif.Spec.Samples
import Verif.Props.C24_C26_Files
/-!
# C54: which exception a writer raises

C37 says which exceptions are possible and C39 that the exception is that of some item; here it is determined.  The items are
checked in the order of the format, except that the parts of a unit come before its other items (`Spec/Checks.lean`); the
exception is the one of the first item that cannot be written (`Item.cause`), whatever else is wrong with the object.
-/

namespace Genie

theorem Fails.findSome {w : Py Bytes} {its : List Item} (h : Fails w its) : errorOf w = its.findSome? Item.cause := by
  rw [h, causes, List.head?_filterMap]

/-- `to_bytes` of a record raises the exception of the first item that cannot be written. -/
theorem C54_record_exception (c : RecordClass) (v : Version) (x : c.Obj) :
    errorOf (c.toBytes v x) = (c.checks v x).findSome? Item.cause := (c.fails v x).findSome

/-- So does `to_bytes` of a file. -/
theorem C54_file_exception (d : DatFile) : errorOf d.toBytes = d.checks.findSome? Item.cause := d.fails.findSome

theorem Unit.checks_perm (v : Version) (x : Unit) : (x.checks v).Perm (x.layout v) := by
  unfold Unit.checks Unit.layout
  apply List.Perm.flatten
  exact List.perm_append_comm (l₁ := [_, _, _, _, _, _, _]) (l₂ := [_, _, _, _, _, _, _, _, _, _, _, _, _, _, _])

theorem each_perm {f g : α → List Item} (l : List α) (h : ∀ x ∈ l, (f x).Perm (g x)) : (Layout.each f l).Perm (Layout.each g l) := by
  induction l with
  | nil => exact List.Perm.refl _
  | cons x l ih => exact (h x (by simp)).append (ih fun y hy => h y (by simp [hy]))

theorem eachPresent_perm {f g : α → List Item} (l : List (Option α)) (h : ∀ x, (f x).Perm (g x)) :
    (Layout.eachPresent f l).Perm (Layout.eachPresent g l) := each_perm _ fun x _ => h x

theorem cons_perm {a b : List Item} {l m : List (List Item)} (h : a.Perm b) (t : l.flatten.Perm m.flatten) :
    (a :: l).flatten.Perm (b :: m).flatten := by
  rw [List.flatten_cons, List.flatten_cons]; exact h.append t

theorem Civ.checks_perm (v : Version) (x : Civ) : (x.checks v).Perm (x.layout v) := by
  unfold Civ.checks Civ.layout
  repeat' refine cons_perm ?_ ?_
  all_goals first | exact List.Perm.refl _ | exact eachPresent_perm _ (Unit.checks_perm v)

/-- The items checked are the items written, in another order. -/
theorem C54_record_same_items (c : RecordClass) (v : Version) (x : c.Obj) : (c.checks v x).Perm (c.layout v x) := by
  cases c
  case Unit => exact Unit.checks_perm v x
  case Civ => exact Civ.checks_perm v x
  all_goals exact List.Perm.refl _

theorem C54_file_same_items (d : DatFile) : d.checks.Perm d.layout := by
  unfold DatFile.checks DatFile.layout
  cases writableVersions.lookup d.version with
  | none => exact List.Perm.refl _
  | some v =>
    dsimp only
    unfold DatFile.checksAt DatFile.layoutAt
    repeat' refine cons_perm ?_ ?_
    all_goals first | exact List.Perm.refl _ | exact each_perm _ fun x _ => Civ.checks_perm v x

/-- The whole behaviour of `to_bytes`. -/
theorem C54_file_outcome (d : DatFile) :
    d.toBytes = match d.checks.findSome? Item.cause with
      | some e => .error e
      | none => .ok (layoutBytes d.layout) := by
  rw [← C54_file_exception]
  cases h : d.toBytes with
  | ok bs => rw [(d.writes.ok bs h).2]; rfl
  | error e => rfl

theorem C54_record_outcome (c : RecordClass) (v : Version) (x : c.Obj) :
    c.toBytes v x = match (c.checks v x).findSome? Item.cause with
      | some e => .error e
      | none => .ok (layoutBytes (c.layout v x)) := by
  rw [← C54_record_exception]
  cases h : c.toBytes v x with
  | ok bs => rw [((c.writes v x).ok bs h).2]; rfl
  | error e => rfl

/-- `save` raises the same exception, before it touches any file. -/
theorem C54_save_exception (z : Zlib) (env : Environment) (fs : FileSystem) (d : DatFile) (p : Path) (e : PyErr)
    (h : d.checks.findSome? Item.cause = some e) : DatFile.save z env fs d p = (fs, .raised e) := by
  have h1 := C54_file_outcome d
  rw [h] at h1
  exact C25_failed_encode_untouched z env fs d e h1 p

/-! ## not vacuous -/

-- a unit whose name cannot be encoded (a lone surrogate) and with a dead-fish part whose turn radius is too large: the part comes first
example : errorOf (Unit.toBytes .VER_88 { Sample.archer .VER_88 with name := [0xD800] }) = some .unicodeEncodeError := by decide +kernel
example : errorOf (Unit.toBytes .VER_88 { Sample.archer .VER_88 with
      name := [0xD800]
      dead_fish := some { Sample.deadFish with turn_radius := ⟨0x7FE0000000000000#64⟩ } }) =
    some .overflowError := by decide +kernel
-- a number of the unit itself comes before the name
example : errorOf (Unit.toBytes .VER_88 { Sample.archer .VER_88 with name := [0xD800], id := 70000 }) = some .structError := by decide +kernel

end Genie
