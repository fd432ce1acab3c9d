import Verif.Proof.Source.WriteUnit
/-!
# The source of `to_bytes` of every class
-/

namespace Genie.Src

theorem method_mem (name : PyStr) : ∀ (ms : List (PyStr × (Heap → W.Rec → HVal → Version → Py Bytes))), name ∈ ms.map (·.1) →
    ∃ m, W.method name ms = some m ∧ (name, m) ∈ ms
  | [], h => by simp at h
  | (n, m) :: ms, h => by
    unfold W.method
    by_cases hn : n = name
    · subst hn
      exact ⟨m, by simp, List.mem_cons_self ..⟩
    · rw [if_neg hn]
      obtain ⟨m', h1, h2⟩ := method_mem name ms (by simpa [Ne.symm hn] using h)
      exact ⟨m', h1, List.mem_cons_of_mem _ h2⟩

/-- The source of every `to_bytes` does what the model says. -/
theorem every_to_bytes : ∀ p ∈ W.methods, WritesAs (Name.ofStr p.1) p.2 := by
  unfold W.methods
  simp only [List.forall_mem_cons]
  refine ⟨EffectCommand_to_bytes, Effect_to_bytes, SoundItem_to_bytes, Sound_to_bytes, PlayerColour_to_bytes, GraphicDelta_to_bytes, GraphicAngleSound_to_bytes, Graphic_to_bytes, TerrainPassGraphic_to_bytes, TerrainRestriction_to_bytes, FrameData_to_bytes, Terrain_to_bytes, TileSize_to_bytes, TerrainBlock_to_bytes, MapUnit_to_bytes, MapTerrain_to_bytes, MapLand_to_bytes, MapElevation_to_bytes, MapInfo_to_bytes, RandomMaps_to_bytes, ResearchResourceCost_to_bytes, ResearchLocation_to_bytes, Tech_to_bytes, Common_to_bytes, TechTreeAge_to_bytes, BuildingConnection_to_bytes, UnitConnection_to_bytes, ResearchConnection_to_bytes, TechTree_to_bytes, Task_to_bytes, ResourceStorage_to_bytes, DamageGraphic_to_bytes, DeadFish_to_bytes, Bird_to_bytes, AttackOrArmor_to_bytes, Type50_to_bytes, Projectile_to_bytes, ResourceCost_to_bytes, TrainLocation_to_bytes, Creatable_to_bytes, BuildingAnnex_to_bytes, Building_to_bytes, Unit_to_bytes, UnitHeaders_to_bytes, Civ_to_bytes, DatFile_to_bytes, fun _ h => nomatch h⟩

/-- `o.to_bytes(version)`, executed from its source, for every object of a heap whose instances are of classes of the package. -/
theorem source_to_bytes {H : Heap} {s : ByteHandler} (hk : Known H) : ∀ d, Writes H s (4 * d + 2) (W.toBytes H d)
  | 0 => fun _ _ _ _ hne => absurd rfl hne
  | d + 1 => by
    intro o ver n hn
    have ih := source_to_bytes (s := s) hk d
    cases hc : W.cell H o with
    | none =>
      intro _
      unfold objMethod W.toBytes
      rw [hc]
      cases o <;> rfl
    | some c =>
      cases o with
      | ref a =>
        cases c with
        | record name attrs =>
          obtain ⟨m, hm, hmem⟩ := method_mem name W.methods (hk a name attrs hc)
          have e : W.toBytes H (d + 1) (.ref a) ver = m H (W.toBytes H d) (.ref a) ver := by
            show (match HVal.ref a, W.cell H (.ref a) with
              | .int _, _ => Except.error PyErr.typeError
              | _, some (.record name _) =>
                match W.method name W.methods with
                | some m => m H (W.toBytes H d) (.ref a) ver
                | none => .error .attributeError
              | _, _ => .error .attributeError) = _
            rw [hc]
            simp only [hm]
          rw [e]
          have hi : IsA H (.ref a) (Name.ofStr name) := ⟨name, attrs, hc, rfl⟩
          exact Wr.method hi (every_to_bytes _ hmem ver hk ih (by omega) (by omega) hi)
        | _ =>
          intro _
          unfold objMethod W.toBytes
          rw [hc]
          rfl
      | _ => exact absurd hc (by simp [W.cell])

end Genie.Src
