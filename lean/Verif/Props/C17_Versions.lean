import Verif.Model.Versions
/-!
# C17: version comparison
-/

namespace Genie

/-- Position of a version in the release order; `UNDEFINED` is before all. -/
def releaseOrder : Version → Nat
  | .UNDEFINED => 0 | .VER_71 => 1 | .VER_72 => 2 | .VER_73 => 3 | .VER_74 => 4 | .VER_75 => 5
  | .VER_76 => 6 | .VER_77 => 7 | .VER_78 => 8 | .VER_84 => 9 | .VER_88 => 10

/-- The four operators (string comparisons in the code) are the release order. -/
theorem C17_order (v w : Version) :
    (v.lt w = true ↔ releaseOrder v < releaseOrder w) ∧ (v.le w = true ↔ releaseOrder v ≤ releaseOrder w) ∧
    (v.gt w = true ↔ releaseOrder v > releaseOrder w) ∧ (v.ge w = true ↔ releaseOrder v ≥ releaseOrder w) := by
  cases v <;> cases w <;> decide

/-- The release order tells versions apart, so `<` is a strict total order. -/
theorem C17_total (v w : Version) :
    (v.lt w = true ∧ v ≠ w ∧ w.lt v = false) ∨ (v = w ∧ v.lt w = false ∧ w.lt v = false) ∨
      (w.lt v = true ∧ v ≠ w ∧ v.lt w = false) := by
  cases v <;> cases w <;> decide

theorem C17_transitive (u v w : Version) (h1 : u.lt v = true) (h2 : v.lt w = true) : u.lt w = true := by
  rw [(C17_order _ _).1] at *; omega

/-- `Bird` reads its drop-site count when the version is `> 7.7` and writes it when it is `>= 7.8`: the
same versions. -/
theorem C17_drop_site_gate (v : Version) : v.gt .VER_77 = v.ge .VER_78 := by cases v <;> decide

/-- The version strings are pairwise different, and looking one up finds the version. -/
theorem C17_lookup (v : Version) : Version.ofStr v.value = .ok v := by cases v <;> rfl

/-- Any other string is a `ValueError`. -/
theorem C17_lookup_unknown (s : PyStr) (h : ∀ v : Version, v.value ≠ s) : Version.ofStr s = .error .valueError := by
  unfold Version.ofStr
  rw [List.find?_eq_none.2]
  intro v _
  simpa using h v

example : ∀ v : Version, v.value ≠ lit "VER 9.0" := by intro v; cases v <;> decide
example : Version.VER_77.lt .VER_84 = true ∧ Version.UNDEFINED.lt .VER_71 = true := by decide

end Genie
