import Verif.Proof.Records.Writes
/-! # The whole file follows its layout -/

namespace Genie

theorem ofStr_eq (s : PyStr) : Version.ofStr s =
    match writableVersions.lookup s with | some v => .ok v | none => .error .valueError := by
  unfold Version.ofStr
  have e : Version.all.map (fun v => (v.value, v)) = writableVersions := by decide +kernel
  have : (Version.all.find? fun v => v.value == s) = (Version.all.map fun v => (v.value, v)).lookup s := by
    generalize Version.all = l
    induction l with
    | nil => rfl
    | cons a l ih =>
      simp only [List.find?, List.map_cons, List.lookup, ih]
      rw [BEq.comm]
  rw [this, e]
  cases List.lookup s writableVersions <;> rfl

theorem Writes.requires2 {a b : Prop} [Decidable a] [Decidable b] {e : PyErr} {w : Py Bytes} {its : List Item} (h : Writes w its) :
    Writes (if ¬ (a ∧ b) then .error e else w) (Layout.requires a e ++ (Layout.requires b e ++ its)) := by
  have : (if ¬ (a ∧ b) then (.error e : Py Bytes) else w) = if a then (if b then w else .error e) else .error e := by
    by_cases ha : a <;> by_cases hb : b <;> simp [ha, hb]
  rw [this]
  exact Writes.requires (Writes.requires h)

set_option maxRecDepth 4000 in
theorem DatFile.writesAt {v : Version} {x : DatFile} (hv : Version.ofStr x.version = .ok v) : Writes x.toBytes (x.layoutAt v) := by
  unfold DatFile.toBytes DatFile.toBytesGiven
  rw [hv]
  dsimp only
  unfold DatFile.layoutAt
  rw [List.flatten_cons, List.flatten_cons]
  refine Writes.requires2 ?_
  have ht : Writes (writeInt16 x.terrains_used) x.terrainItems := by
    unfold DatFile.terrains_used DatFile.terrainItems DatFile.terrainCount
    cases x.terrain_restrictions with
    | nil => exact Writes.idle2
    | cons r l => exact Writes.count _ 2 true
  writes
  · exact ht
  · unfold DatFile.graphic_pointers; exact Writes.pointers rfl fun _ => rfl

theorem DatFile.writes (x : DatFile) : Writes x.toBytes x.layout := by
  unfold DatFile.layout
  have h := ofStr_eq x.version
  cases hl : writableVersions.lookup x.version with
  | some v => rw [hl] at h; exact DatFile.writesAt h
  | none =>
    rw [hl] at h
    unfold DatFile.toBytes DatFile.toBytesGiven
    rw [h]
    exact Writes.fail

end Genie
