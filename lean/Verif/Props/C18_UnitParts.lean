import Verif.Spec.Parts
import Verif.Props.C23_Sizes
/-!
# C18: the optional parts of a unit depend on its type
-/

namespace Genie
open Layout

/-- A parsed unit has exactly the parts that its type calls for. -/
theorem C18_parsed_parts (h h' : ByteHandler) (u : Unit) (hr : Unit.fromBytes h = .ok (u, h')) :
    (u.speed.isSome ↔ CallsSpeed u.type) ∧ (u.dead_fish.isSome ↔ CallsDeadFish u.type) ∧ (u.bird.isSome ↔ CallsBird u.type) ∧
    (u.type_50.isSome ↔ CallsType50 u.type) ∧ (u.projectile.isSome ↔ CallsProjectile u.type) ∧
    (u.creatable.isSome ↔ CallsCreatable u.type) ∧ (u.building.isSome ↔ CallsBuilding u.type) := by
  have := C13_record_parsed_wellformed .Unit h h' u hr
  exact ⟨this.speed.1.symm, this.dead_fish.1.symm, this.bird.1.symm, this.type_50.1.symm, this.projectile.1.symm,
    this.creatable.1.symm, this.building.1.symm⟩

theorem writeIf_congr {c c' : Prop} [Decidable c] [Decidable c'] {w : α → Py Bytes} {o o' : Option α} (hc : c ↔ c') (h : c → o = o') :
    writeIf c w o = writeIf c' w o' := by
  unfold writeIf
  by_cases k : c
  · rw [if_pos k, if_pos (hc.1 k), h k]
  · rw [if_neg k, if_neg (fun k' => k (hc.2 k'))]

theorem Unit.toBytes_uncalled (v : Version) (y : Unit) (s1 : Option PyFloat) (s2 : Option DeadFish) (s3 : Option Bird) (s4 : Option Type50)
    (s5 : Option Projectile) (s6 : Option Creatable) (s7 : Option Building)
    (h1 : CallsSpeed y.type → s1 = y.speed) (h2 : CallsDeadFish y.type → s2 = y.dead_fish) (h3 : CallsBird y.type → s3 = y.bird)
    (h4 : CallsType50 y.type → s4 = y.type_50) (h5 : CallsProjectile y.type → s5 = y.projectile)
    (h6 : CallsCreatable y.type → s6 = y.creatable) (h7 : CallsBuilding y.type → s7 = y.building) :
    Unit.toBytes v { y with speed := s1, dead_fish := s2, bird := s3, type_50 := s4, projectile := s5, creatable := s6, building := s7 } =
      Unit.toBytes v y := by
  have e1 := writeIf_congr (w := writeFloat) (o := s1) (o' := y.speed)
    (Iff.refl (y.type ≠ UnitType.AoeTrees ∧ y.type ≥ UnitType.Flag)) (fun k => h1 k)
  have e2 := writeIf_congr (w := fun x => writeClass DeadFish.toBytes x v)
    (Iff.refl (y.type ≠ UnitType.AoeTrees ∧ y.type ≥ UnitType.Flag ∧ y.type ≥ UnitType.DeadFish)) (fun k => h2 ⟨k.1, k.2.2⟩)
  have e3 := writeIf_congr (w := fun x => writeClass Bird.toBytes x v)
    (Iff.refl (y.type ≠ UnitType.AoeTrees ∧ y.type ≥ UnitType.Flag ∧ y.type ≥ UnitType.Bird)) (fun k => h3 ⟨k.1, k.2.2⟩)
  have e4 := writeIf_congr (w := fun x => writeClass Type50.toBytes x v)
    (Iff.refl (y.type ≠ UnitType.AoeTrees ∧ y.type ≥ UnitType.Flag ∧ y.type ≥ UnitType.Combatant)) (fun k => h4 ⟨k.1, k.2.2⟩)
  have e5 := writeIf_congr (w := fun x => writeClass Projectile.toBytes x v)
    (Iff.refl (y.type ≠ UnitType.AoeTrees ∧ y.type ≥ UnitType.Flag ∧ y.type = UnitType.Projectile)) (fun k => h5 k.2.2)
  have e6 := writeIf_congr (w := fun x => writeClass Creatable.toBytes x v)
    (Iff.refl (y.type ≠ UnitType.AoeTrees ∧ y.type ≥ UnitType.Flag ∧ y.type ≥ UnitType.Creatable)) (fun k => h6 ⟨k.1, k.2.2⟩)
  have e7 := writeIf_congr (w := fun x => writeClass Building.toBytes x v)
    (Iff.refl (y.type ≠ UnitType.AoeTrees ∧ y.type ≥ UnitType.Flag ∧ y.type = UnitType.Building)) (fun k => h7 k.2.2)
  unfold Unit.toBytes Unit.toBytes84 Unit.toBytes88
  dsimp only
  rw [e1, e2, e3, e4, e5, e6, e7]

/-- Parts that the type does not call for do not matter to `to_bytes`, neither to the result nor to the exception. -/
theorem C18_uncalled_ignored (v : Version) (x y : Unit) (h : SameButUncalled x y) : Unit.toBytes v x = Unit.toBytes v y := by
  have e : x = { y with speed := x.speed, dead_fish := x.dead_fish, bird := x.bird, type_50 := x.type_50, projectile := x.projectile, creatable := x.creatable, building := x.building } :=
    congrArg (fun z : Unit => { z with speed := x.speed, dead_fish := x.dead_fish, bird := x.bird, type_50 := x.type_50, projectile := x.projectile, creatable := x.creatable, building := x.building }) h.fields
  have et : x.type = y.type := by rw [e]
  rw [show Unit.toBytes v x = Unit.toBytes v { y with speed := x.speed, dead_fish := x.dead_fish, bird := x.bird, type_50 := x.type_50, projectile := x.projectile, creatable := x.creatable, building := x.building } from congrArg _ e]
  exact Unit.toBytes_uncalled v y _ _ _ _ _ _ _ (et ▸ h.speed) (et ▸ h.dead_fish) (et ▸ h.bird) (et ▸ h.type_50) (et ▸ h.projectile)
    (et ▸ h.creatable) (et ▸ h.building)

theorem part_none {c : Prop} [Decidable c] {f : α → List Item} : part c f none = [] := by unfold part; split <;> rfl

theorem PartBytes.iff {c : Prop} [Decidable c] {w : α → Py Bytes} {f : α → List Item} {o : Option α} (hw : ∀ a, Writes (w a) (f a)) (b : Bytes) :
    PartBytes c w o b ↔ (∀ i ∈ part c f o, i.cause = none) ∧ b = layoutBytes (part c f o) := by
  unfold PartBytes part
  by_cases k : c
  · simp only [if_pos k]
    cases o with
    | none => simp [k, layoutBytes]
    | some a =>
      simp only [k, Option.some.injEq, forall_eq', true_implies, reduceCtorEq, or_self, not_true_eq_false, false_implies, and_true]
      constructor
      · intro h
        have := (hw a).ok b h
        exact ⟨causes_eq_nil.1 this.1, this.2⟩
      · rintro ⟨h, rfl⟩
        exact (hw a).ok_of (causes_eq_nil.2 h)
  · simp [if_neg k, k, layoutBytes]

/-- `to_bytes` writes the unit without its parts, and then the parts that the type calls for, in this order, each as its own
`to_bytes` gives it; a part that is missing is skipped, without exception. -/
theorem C18_parts_written (v : Version) (u : Unit) (bs : Bytes) :
    Unit.toBytes v u = .ok bs ↔ ∃ b0 b1 b2 b3 b4 b5 b6 b7,
      Unit.toBytes v u.bare = .ok b0 ∧
      PartBytes (CallsSpeed u.type) writeFloat u.speed b1 ∧
      PartBytes (CallsDeadFish u.type) (DeadFish.toBytes v) u.dead_fish b2 ∧
      PartBytes (CallsBird u.type) (Bird.toBytes v) u.bird b3 ∧
      PartBytes (CallsType50 u.type) (Type50.toBytes v) u.type_50 b4 ∧
      PartBytes (CallsProjectile u.type) (Projectile.toBytes v) u.projectile b5 ∧
      PartBytes (CallsCreatable u.type) (Creatable.toBytes v) u.creatable b6 ∧
      PartBytes (CallsBuilding u.type) (Building.toBytes v) u.building b7 ∧
      bs = b0 ++ (b1 ++ (b2 ++ (b3 ++ (b4 ++ (b5 ++ (b6 ++ b7)))))) := by
  have split : u.layout v = u.bare.layout v ++ (part (u.type ≠ 90 ∧ 20 ≤ u.type) f32 u.speed ++
    (part (u.type ≠ 90 ∧ 30 ≤ u.type) (DeadFish.layout v) u.dead_fish ++
    (part (u.type ≠ 90 ∧ 40 ≤ u.type) (Bird.layout v) u.bird ++
    (part (u.type ≠ 90 ∧ 50 ≤ u.type) (Type50.layout v) u.type_50 ++
    (part (u.type = 60) (Projectile.layout v) u.projectile ++
    (part (u.type ≠ 90 ∧ 70 ≤ u.type) (Creatable.layout v) u.creatable ++
    part (u.type = 80) (Building.layout v) u.building)))))) := by
    unfold Unit.layout Unit.bare
    simp only [List.flatten_cons, List.flatten_nil, List.append_nil, List.append_assoc, part_none]
  have e0 := C39_record_format .Unit v u bs
  have e1 := C39_record_format .Unit v u.bare
  simp only [RecordClass.toBytes, RecordClass.layout] at e0 e1
  rw [e0, split]
  unfold CallsSpeed CallsDeadFish CallsBird CallsType50 CallsProjectile CallsCreatable CallsBuilding
  simp only [e1, PartBytes.iff (f := f32) (fun a => Writes.f32 a), PartBytes.iff (f := DeadFish.layout v) (fun a => DeadFish.writes v a),
    PartBytes.iff (f := Bird.layout v) (fun a => Bird.writes v a), PartBytes.iff (f := Type50.layout v) (fun a => Type50.writes v a),
    PartBytes.iff (f := Projectile.layout v) (fun a => Projectile.writes v a), PartBytes.iff (f := Creatable.layout v) (fun a => Creatable.writes v a),
    PartBytes.iff (f := Building.layout v) (fun a => Building.writes v a), List.mem_append, or_imp, forall_and, layoutBytes_append]
  constructor
  · rintro ⟨⟨h0, h1, h2, h3, h4, h5, h6, h7⟩, rfl⟩
    exact ⟨_, _, _, _, _, _, _, _, ⟨h0, rfl⟩, ⟨h1, rfl⟩, ⟨h2, rfl⟩, ⟨h3, rfl⟩, ⟨h4, rfl⟩, ⟨h5, rfl⟩, ⟨h6, rfl⟩, ⟨h7, rfl⟩, rfl⟩
  · rintro ⟨_, _, _, _, _, _, _, _, ⟨h0, rfl⟩, ⟨h1, rfl⟩, ⟨h2, rfl⟩, ⟨h3, rfl⟩, ⟨h4, rfl⟩, ⟨h5, rfl⟩, ⟨h6, rfl⟩, ⟨h7, rfl⟩, rfl⟩
    exact ⟨⟨h0, h1, h2, h3, h4, h5, h6, h7⟩, rfl⟩

/-- A unit with a part too many or too few is never the result of a read. -/
theorem C18_wrong_parts_not_read (u : Unit)
    (hp : ¬ ((u.speed.isSome ↔ CallsSpeed u.type) ∧ (u.dead_fish.isSome ↔ CallsDeadFish u.type) ∧ (u.bird.isSome ↔ CallsBird u.type) ∧
      (u.type_50.isSome ↔ CallsType50 u.type) ∧ (u.projectile.isSome ↔ CallsProjectile u.type) ∧
      (u.creatable.isSome ↔ CallsCreatable u.type) ∧ (u.building.isSome ↔ CallsBuilding u.type))) (h h' : ByteHandler) :
    Unit.fromBytes h ≠ .ok (u, h') := fun hr => hp (C18_parsed_parts _ _ _ hr)

/-- The sample house (type 80) has all parts but the projectile; read back from its bytes. -/
example : ∃ bs h', Unit.toBytes .VER_88 (Sample.house .VER_88) = .ok bs ∧
    Unit.fromBytes { ByteHandler.new bs with version := .VER_88 } = .ok (Sample.house .VER_88, h') := by
  obtain ⟨bs, h1, -⟩ := C11_record_round_trip .Unit .VER_88 _ (Sample.wf .VER_88 (by decide) .Unit)
  obtain ⟨h', h2⟩ := (C13_record_round_trips_iff .Unit .VER_88 _ bs h1).2 (Sample.wf .VER_88 (by decide) .Unit)
  exact ⟨bs, h', h1, h2⟩

/-- A missile with a creatable part that its type (60) does not call for. -/
example : SameButUncalled { Sample.missile .VER_88 with creatable := some (Sample.creatable .VER_88 7) } (Sample.missile .VER_88) :=
  ⟨rfl, fun _ => rfl, fun _ => rfl, fun _ => rfl, fun _ => rfl, fun _ => rfl, fun h => absurd h.2 (by decide), fun _ => rfl⟩

/-- A house without its building part is written, shorter by the size of that part. -/
example : (resultOf (Unit.toBytes .VER_88 { Sample.house .VER_88 with building := none })).map (·.length + (Building.size .VER_88 Sample.building)) =
    (resultOf (Unit.toBytes .VER_88 (Sample.house .VER_88))).map List.length := by decide +kernel

end Genie
