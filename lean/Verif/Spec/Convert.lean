import Verif.Spec.Versioned
import Verif.Spec.Layout
/-!
# Saving as another version

What is left of an object when its `version` attribute is set to another version, the file is saved and loaded again:
values that the other version has no room for are replaced by the values that its reader fills in.
-/

namespace Genie

/-- `enabled` is stored since 8.8. -/
def Task.asVersion (w : Version) (x : Task) : Task := if 88 ≤ w.num then x else { x with enabled := -1 }

def UnitHeaders.asVersion (w : Version) (x : UnitHeaders) : UnitHeaders :=
  { x with task_list := x.task_list.map fun l => l.map (Task.asVersion w) }

def Bird.asVersion (w : Version) (x : Bird) : Bird := { x with tasks := x.tasks.map (Task.asVersion w) }

/-- Five fields are stored since 8.4. -/
def Type50.asVersion (w : Version) (x : Type50) : Type50 :=
  if 84 ≤ w.num then x else
  { x with
    damage_reflection := PyFloat.zero, friendly_fire_damage := PyFloat.one, interrupt_frame := -1,
    garrison_firepower := PyFloat.zero, attack_graphic_2 := -1 }

/-- Nine fields are stored since 8.4.  Before 8.8 only the first train location is stored, and its hot key not there but in
the unit (`hk`). -/
def Creatable.asVersion (w : Version) (hk : Int) (x : Creatable) : Creatable :=
  let y := if 84 ≤ w.num then x else
    { x with
      idle_attack_graphic := -1, charge_target := 0, charge_projectile_unit := -1, attack_priority := 0,
      invulnerability_level := PyFloat.zero, button_icon_id := -1, button_short_tooltip_id := -1,
      button_extended_tooltip_id := -1, button_hotkey_action := -1 }
  { y with train_locations :=
      if 88 ≤ w.num then x.train_locations else (x.train_locations.take 1).map fun t => { t with hot_key_id := hk } }

/-- Since 8.8 the hot key of a unit is that of its first train location, 16000 if it has none. -/
def Unit.hotKeyAs (w : Version) (x : Unit) : Int :=
  if 88 ≤ w.num then
    match x.creatable with
    | none => 16000
    | some c => match c.train_locations with | [] => 16000 | t :: _ => t.hot_key_id
  else x.hot_key

def Unit.asVersion (w : Version) (x : Unit) : Unit :=
  { x with
    hot_key := x.hotKeyAs w
    bird := x.bird.map (Bird.asVersion w)
    type_50 := x.type_50.map (Type50.asVersion w)
    creatable := x.creatable.map (Creatable.asVersion w (x.hotKeyAs w)) }

def Civ.asVersion (w : Version) (x : Civ) : Civ := { x with units := x.units.map fun u => u.map (Unit.asVersion w) }

/-- The first research location, or a default one if there is none. -/
def oneLocation : List ResearchLocation → List ResearchLocation
  | [] => [{ location_id := -1, research_time := 0, button_id := 0, hot_key_id := -1 }]
  | r :: _ => [r]

/-- Before 8.8 a tech has exactly one research location. -/
def Tech.asVersion (w : Version) (x : Tech) : Tech :=
  { x with research_locations := if 88 ≤ w.num then x.research_locations else oneLocation x.research_locations }

/-- The whole file. -/
def DatFile.asVersion (w : Version) (x : DatFile) : DatFile :=
  { x with
    version := w.value
    unit_headers := x.unit_headers.map (UnitHeaders.asVersion w)
    civs := x.civs.map (Civ.asVersion w)
    techs := x.techs.map (Tech.asVersion w) }

/-- Change every unit of every civilization. -/
def DatFile.mapUnits (f : Unit → Unit) (x : DatFile) : DatFile :=
  { x with civs := x.civs.map fun c => { c with units := c.units.map fun u => u.map f } }

/-- A file of an older version after saving it as 8.8: only the hot keys of the units without creatable record are lost. -/
def DatFile.upgraded88 (x : DatFile) : DatFile :=
  DatFile.mapUnits (fun u => if u.creatable.isNone then { u with hot_key := 16000 } else u) { x with version := lit "VER 8.8" }

/-- A file of version 8.8 after saving it as 8.4. -/
def DatFile.downgraded84 (x : DatFile) : DatFile :=
  DatFile.mapUnits
    (fun u => { u with
      bird := u.bird.map fun b => { b with tasks := b.tasks.map fun t => { t with enabled := -1 } }
      creatable := u.creatable.map fun c => { c with train_locations := c.train_locations.take 1 } })
    { x with
      version := lit "VER 8.4"
      unit_headers := x.unit_headers.map fun h =>
        { h with task_list := h.task_list.map fun l => l.map fun t => { t with enabled := -1 } }
      techs := x.techs.map fun t => { t with research_locations := oneLocation t.research_locations } }

/-- Before 7.8 a bird has room for exactly three drop sites. -/
def Unit.DropSitesFit (w : Version) (x : Unit) : Prop := w.num < 78 → ∀ b, x.bird = some b → b.drop_sites.length = 3

/-- For all units of the file. -/
def DatFile.DropSitesFit (w : Version) (x : DatFile) : Prop := ∀ c ∈ x.civs, ∀ u, some u ∈ c.units → u.DropSitesFit w

end Genie
