import Verif.Proof.ConvertLayout
import Verif.Proof.ConvertWF
import Verif.Proof.Records.Special
import Verif.Proof.Records.WritesDat
/-!
# Creatables without a train location are the only reason for a downgrade to fail

`settle` adds a train location wherever there is none; a well-formed file of version 8.8 stays well-formed, and apart from the
`IndexError`s the reasons for not writing it at another version are the same.
-/

namespace Genie
open Layout

def Creatable.settle (x : Creatable) : Creatable :=
  { x with train_locations := match x.train_locations with
      | [] => [{ train_time := 0, unit_id := 0, button_id := 0, hot_key_id := 16000 }]
      | t :: l => t :: l }

def Unit.settle (x : Unit) : Unit := { x with creatable := x.creatable.map Creatable.settle }
def Civ.settle (x : Civ) : Civ := { x with units := x.units.map fun u => u.map Unit.settle }
def DatFile.settle (x : DatFile) : DatFile := { x with civs := x.civs.map Civ.settle }

theorem Creatable.settle_ne (x : Creatable) : x.settle.train_locations ≠ [] := by
  unfold Creatable.settle
  cases x.train_locations <;> simp

theorem DatFile.settle_not_homeless (w : Version) (x : DatFile) : ¬ x.settle.Homeless w := by
  rintro ⟨c, hc, u, hu, -, -, cr, hcr, -, he⟩
  obtain ⟨c0, -, rfl⟩ := List.mem_map.1 hc
  obtain ⟨o, -, ho⟩ := List.mem_map.1 hu
  cases o with
  | none => cases ho
  | some u0 =>
    cases ho
    unfold Unit.settle at hcr
    cases hc0 : u0.creatable with
    | none => rw [hc0] at hcr; cases hcr
    | some c1 => rw [hc0] at hcr; cases hcr; exact Creatable.settle_ne _ he

theorem Creatable.settle_wf {v : Version} {hk : Int} {x : Creatable} (hv : 88 ≤ v.num) (h : Creatable.WFWith v hk x) : Creatable.WFWith v hk x.settle :=
  { h with
    train_locations := by
      refine Since.of_ge hv ?_
      have h0 := h.train_locations.of_ge' hv
      unfold Creatable.settle
      cases ht : x.train_locations with
      | nil =>
        refine ⟨by show 1 ≤ 32767; decide, fun y hy => ?_⟩
        rw [List.mem_singleton] at hy
        subst hy
        exact { train_time := by decide, unit_id := by decide, button_id := by decide, hot_key_id := Since.of_ge hv (by decide) }
      | cons t l => rw [ht] at h0; exact h0 }

theorem Unit.settle_wf {v : Version} {x : Unit} (hv : 88 ≤ v.num) (h : Unit.WF v x) : Unit.WF v x.settle :=
  { h with
    creatable := h.creatable.map fun _ _ => Creatable.settle_wf hv
    hot_key := by
      refine Since.of_ge hv ?_
      have h0 := h.hot_key.of_ge' hv
      unfold Unit.settle
      cases hc : x.creatable with
      | none =>
        dsimp only
        refine ⟨fun c t ts k => (by cases k), fun _ => h0.2 fun c k => (by rw [hc] at k; cases k)⟩
      | some c =>
        dsimp only [Option.map_some]
        refine ⟨fun c' t ts k ht => ?_, fun k => absurd (k _ rfl) (Creatable.settle_ne c)⟩
        cases k
        unfold Creatable.settle at ht
        cases hl : c.train_locations with
        | nil =>
          rw [hl] at ht
          cases ht
          exact h0.2 fun c' k => (by rw [hc] at k; cases k; exact hl)
        | cons t' l =>
          rw [hl] at ht
          cases ht
          exact h0.1 c _ _ hc hl }

theorem Civ.settle_wf {v : Version} {x : Civ} (hv : 88 ≤ v.num) (h : Civ.WF v x) : Civ.WF v x.settle :=
  { h with units := h.units.map fun _ _ k => k.map fun _ _ => Unit.settle_wf hv }

theorem DatFile.settle_wf {v : Version} {x : DatFile} (hv : 88 ≤ v.num) (h : DatFile.WFAt v x) : DatFile.WFAt v x.settle :=
  { h with civs := h.civs.map fun _ _ => Civ.settle_wf hv }

theorem DatFile.settle_dropSites {w : Version} {x : DatFile} (h : x.DropSitesFit w) : x.settle.DropSitesFit w := by
  intro c hc u hu hw b hb
  obtain ⟨c0, hc0, rfl⟩ := List.mem_map.1 hc
  obtain ⟨o, ho, e⟩ := List.mem_map.1 hu
  cases o with
  | none => cases e
  | some u0 => cases e; exact h c0 hc0 u0 ho hw b hb

theorem Creatable.settle_causes {w : Version} {x : Creatable} {e : PyErr} (h : e ∈ causes (Creatable.layout w x)) :
    e ∈ causes (Creatable.layout w x.settle) ∨ e = .indexError := by
  cases hl : x.train_locations with
  | cons t l =>
    have : x.settle = x := by unfold Creatable.settle; rw [hl]; cases x; cases hl; rfl
    rw [this]; exact .inl h
  | nil =>
    by_cases hw : 88 ≤ w.num
    · left
      unfold Creatable.layout at h ⊢
      rw [if_pos hw] at h ⊢
      rw [causes_append, List.mem_append] at h ⊢
      refine h.imp (fun k => k) fun h => ?_
      unfold Creatable.settle
      simp only [mem_causes_cons, hl] at h ⊢
      rcases h with h | h | h | h
      · cases h
      · cases h
      · exact .inr (.inr (.inl h))
      · cases h
    · unfold Creatable.layout at h ⊢
      rw [if_neg hw, hl] at h
      rw [if_neg hw, causes_append, List.mem_append]
      rw [causes_append, List.mem_append] at h
      rcases h with h | h
      · exact .inl (.inl h)
      · cases (mem_causes_requires.1 h).2
        exact .inr rfl

theorem Unit.settle_causes {w : Version} {x : Unit} {e : PyErr} (h : e ∈ causes (Unit.layout w x)) :
    e ∈ causes (Unit.layout w x.settle) ∨ e = .indexError := by
  unfold Unit.layout Unit.settle at *
  simp only [mem_causes_cons] at h ⊢
  by_cases he : e = .indexError
  · exact .inr he
  have hp : e ∈ causes (part (x.type ≠ 90 ∧ 70 ≤ x.type) (Creatable.layout w) x.creatable) →
      e ∈ causes (part (x.type ≠ 90 ∧ 70 ≤ x.type) (Creatable.layout w) (x.creatable.map Creatable.settle)) := by
    intro h
    unfold part at h ⊢
    split
    · rename_i ht
      rw [if_pos ht] at h
      cases hc : x.creatable with
      | none => rw [hc] at h; exact h
      | some c =>
        rw [hc] at h
        exact (Creatable.settle_causes h).resolve_right he
    · rename_i ht
      rw [if_neg ht] at h
      exact h
  left
  have aux : ∀ {a b c : Prop}, (b → c) → a ∨ b → a ∨ c := fun f h => h.imp (fun k => k) f
  revert h
  iterate 20 (refine aux ?_)
  exact fun h => h.imp hp (fun k => k)

theorem Civ.settle_causes {w : Version} {x : Civ} {e : PyErr} (h : e ∈ causes (Civ.layout w x)) :
    e ∈ causes (Civ.layout w x.settle) ∨ e = .indexError := by
  by_cases he : e = .indexError
  · exact .inr he
  left
  unfold Civ.layout Civ.settle at *
  simp only [mem_causes_cons, countI16_map, pointers_map_eq] at h ⊢
  have aux : ∀ {a b c : Prop}, (b → c) → a ∨ b → a ∨ c := fun f h => h.imp (fun k => k) f
  revert h
  iterate 9 (refine aux ?_)
  refine fun h => h.imp (fun h => ?_) (fun k => k)
  obtain ⟨u, hu, h⟩ := mem_causes_eachPresent.1 h
  exact mem_causes_eachPresent.2 ⟨u.settle, List.mem_map.2 ⟨some u, hu, rfl⟩, (Unit.settle_causes h).resolve_right he⟩

set_option maxRecDepth 4000 in
theorem DatFile.settle_causes {w : Version} {x : DatFile} {e : PyErr} (h : e ∈ causes (DatFile.layoutAt w x)) :
    e ∈ causes (DatFile.layoutAt w x.settle) ∨ e = .indexError := by
  by_cases he : e = .indexError
  · exact .inr he
  left
  unfold DatFile.layoutAt DatFile.settle DatFile.terrainItems DatFile.terrainCount at *
  simp only [mem_causes_cons, countI16_map] at h ⊢
  have aux : ∀ {a b c : Prop}, (b → c) → a ∨ b → a ∨ c := fun f h => h.imp (fun k => k) f
  revert h
  iterate 22 (refine aux ?_)
  refine fun h => h.imp (fun h => ?_) (fun k => k)
  obtain ⟨c, hc, h⟩ := mem_causes_each.1 h
  exact mem_causes_each.2 ⟨c.settle, List.mem_map.2 ⟨c, hc, rfl⟩, (Civ.settle_causes h).resolve_right he⟩

/-- Where the version does not matter. -/
theorem DatFile.settle_version (x : DatFile) (s : PyStr) : ({ x with version := s } : DatFile).settle = { x.settle with version := s } := rfl

end Genie
