import Verif.Proof.Asdict
import Verif.Spec.Versioned
import Verif.Proof.Utf8
import Verif.Proof.Edits.Core
/-! # The strings of the trees (generated by `tools/gen_asdict.py`) -/

namespace Genie
open PyTree

theorem texts_nil : TextsItems [] := trivial
theorem texts_cons {k : PyStr} {t : PyTree} {ts : List (PyStr × PyTree)} (hk : (k.all isScalar) = true) (ht : t.Texts)
    (hts : TextsItems ts) : TextsItems ((k, t) :: ts) := ⟨List.all_eq_true.1 hk, ht, hts⟩
theorem texts_dict {ts : List (PyStr × PyTree)} (hts : TextsItems ts) : (PyTree.dict ts).Texts := hts
theorem texts_list {f : α → PyTree} {l : List α} (h : ∀ x ∈ l, (f x).Texts) : (PyTree.list (l.map f)).Texts := by
  simp only [Texts]
  induction l with
  | nil => trivial
  | cons x l ih => exact ⟨h x (by simp), ih fun y hy => h y (by simp [hy])⟩
theorem texts_opt {f : α → PyTree} {x : Option α} (h : ∀ y, x = some y → (f y).Texts) : (optTree f x).Texts := by
  cases x with
  | none => trivial
  | some y => exact h y rfl
theorem texts_inv (old : Bool) (x : PyFloat) : (invulnerabilityTree old x).Texts := by
  unfold invulnerabilityTree; split <;> trivial
theorem texts_str {s : PyStr} (h : IsDebugStr s) : (PyTree.str s).Texts := fun c hc => (isScalar_iff c).2 (h.1 c hc)

theorem EffectCommand.asdict_texts (x : EffectCommand) : (x.asdict).Texts := by
  refine texts_dict ?_
  refine texts_cons (by decide) (trivial) ?_
  refine texts_cons (by decide) (trivial) ?_
  refine texts_cons (by decide) (trivial) ?_
  refine texts_cons (by decide) (trivial) ?_
  refine texts_cons (by decide) (trivial) ?_
  exact texts_nil

theorem Effect.asdict_texts {v : Version} {x : Effect} (h : Effect.WF v x) : (x.asdict).Texts := by
  refine texts_dict ?_
  refine texts_cons (by decide) (texts_str h.name) ?_
  refine texts_cons (by decide) (texts_list fun y hy => EffectCommand.asdict_texts y) ?_
  exact texts_nil

theorem SoundItem.asdict_texts {v : Version} {x : SoundItem} (h : SoundItem.WF v x) : (x.asdict).Texts := by
  refine texts_dict ?_
  refine texts_cons (by decide) (texts_str h.filename) ?_
  refine texts_cons (by decide) (trivial) ?_
  refine texts_cons (by decide) (trivial) ?_
  refine texts_cons (by decide) (trivial) ?_
  refine texts_cons (by decide) (trivial) ?_
  exact texts_nil

theorem Sound.asdict_texts {v : Version} {x : Sound} (h : Sound.WF v x) : (x.asdict).Texts := by
  refine texts_dict ?_
  refine texts_cons (by decide) (trivial) ?_
  refine texts_cons (by decide) (trivial) ?_
  refine texts_cons (by decide) (trivial) ?_
  refine texts_cons (by decide) (trivial) ?_
  refine texts_cons (by decide) (texts_list fun y hy => SoundItem.asdict_texts (h.items.2 y hy)) ?_
  exact texts_nil

theorem PlayerColour.asdict_texts (x : PlayerColour) : (x.asdict).Texts := by
  refine texts_dict ?_
  refine texts_cons (by decide) (trivial) ?_
  refine texts_cons (by decide) (trivial) ?_
  refine texts_cons (by decide) (trivial) ?_
  refine texts_cons (by decide) (trivial) ?_
  refine texts_cons (by decide) (trivial) ?_
  refine texts_cons (by decide) (trivial) ?_
  refine texts_cons (by decide) (trivial) ?_
  refine texts_cons (by decide) (trivial) ?_
  refine texts_cons (by decide) (trivial) ?_
  exact texts_nil

theorem GraphicDelta.asdict_texts (x : GraphicDelta) : (x.asdict).Texts := by
  refine texts_dict ?_
  refine texts_cons (by decide) (trivial) ?_
  refine texts_cons (by decide) (trivial) ?_
  refine texts_cons (by decide) (trivial) ?_
  refine texts_cons (by decide) (trivial) ?_
  refine texts_cons (by decide) (trivial) ?_
  refine texts_cons (by decide) (trivial) ?_
  refine texts_cons (by decide) (trivial) ?_
  exact texts_nil

theorem GraphicAngleSound.asdict_texts (x : GraphicAngleSound) : (x.asdict).Texts := by
  refine texts_dict ?_
  refine texts_cons (by decide) (trivial) ?_
  refine texts_cons (by decide) (trivial) ?_
  refine texts_cons (by decide) (trivial) ?_
  refine texts_cons (by decide) (trivial) ?_
  refine texts_cons (by decide) (trivial) ?_
  refine texts_cons (by decide) (trivial) ?_
  refine texts_cons (by decide) (trivial) ?_
  refine texts_cons (by decide) (trivial) ?_
  refine texts_cons (by decide) (trivial) ?_
  exact texts_nil

theorem Graphic.asdict_texts {v : Version} {x : Graphic} (h : Graphic.WF v x) : (x.asdict).Texts := by
  refine texts_dict ?_
  refine texts_cons (by decide) (texts_str h.name) ?_
  refine texts_cons (by decide) (texts_str h.file_name) ?_
  refine texts_cons (by decide) (texts_str h.particle_effect_name) ?_
  refine texts_cons (by decide) (trivial) ?_
  refine texts_cons (by decide) (trivial) ?_
  refine texts_cons (by decide) (trivial) ?_
  refine texts_cons (by decide) (trivial) ?_
  refine texts_cons (by decide) (trivial) ?_
  refine texts_cons (by decide) (trivial) ?_
  refine texts_cons (by decide) (texts_list fun y hy => trivial) ?_
  refine texts_cons (by decide) (trivial) ?_
  refine texts_cons (by decide) (trivial) ?_
  refine texts_cons (by decide) (trivial) ?_
  refine texts_cons (by decide) (trivial) ?_
  refine texts_cons (by decide) (trivial) ?_
  refine texts_cons (by decide) (trivial) ?_
  refine texts_cons (by decide) (trivial) ?_
  refine texts_cons (by decide) (trivial) ?_
  refine texts_cons (by decide) (trivial) ?_
  refine texts_cons (by decide) (trivial) ?_
  refine texts_cons (by decide) (trivial) ?_
  refine texts_cons (by decide) (trivial) ?_
  refine texts_cons (by decide) (texts_list fun y hy => GraphicDelta.asdict_texts y) ?_
  refine texts_cons (by decide) (texts_list fun y hy => GraphicAngleSound.asdict_texts y) ?_
  exact texts_nil

theorem TerrainPassGraphic.asdict_texts (x : TerrainPassGraphic) : (x.asdict).Texts := by
  refine texts_dict ?_
  refine texts_cons (by decide) (trivial) ?_
  refine texts_cons (by decide) (trivial) ?_
  refine texts_cons (by decide) (trivial) ?_
  refine texts_cons (by decide) (trivial) ?_
  exact texts_nil

theorem TerrainRestriction.asdict_texts (x : TerrainRestriction) : (x.asdict).Texts := by
  refine texts_dict ?_
  refine texts_cons (by decide) (texts_list fun y hy => trivial) ?_
  refine texts_cons (by decide) (texts_list fun y hy => TerrainPassGraphic.asdict_texts y) ?_
  exact texts_nil

theorem FrameData.asdict_texts (x : FrameData) : (x.asdict).Texts := by
  refine texts_dict ?_
  refine texts_cons (by decide) (trivial) ?_
  refine texts_cons (by decide) (trivial) ?_
  refine texts_cons (by decide) (trivial) ?_
  exact texts_nil

theorem Terrain.asdict_texts {v : Version} {x : Terrain} (h : Terrain.WF v x) : (x.asdict).Texts := by
  refine texts_dict ?_
  refine texts_cons (by decide) (trivial) ?_
  refine texts_cons (by decide) (trivial) ?_
  refine texts_cons (by decide) (trivial) ?_
  refine texts_cons (by decide) (trivial) ?_
  refine texts_cons (by decide) (trivial) ?_
  refine texts_cons (by decide) (texts_str h.name) ?_
  refine texts_cons (by decide) (texts_str h.name_2) ?_
  refine texts_cons (by decide) (trivial) ?_
  refine texts_cons (by decide) (trivial) ?_
  refine texts_cons (by decide) (trivial) ?_
  refine texts_cons (by decide) (trivial) ?_
  refine texts_cons (by decide) (trivial) ?_
  refine texts_cons (by decide) (trivial) ?_
  refine texts_cons (by decide) (trivial) ?_
  refine texts_cons (by decide) (texts_str h.overlay_mask_name) ?_
  refine texts_cons (by decide) (texts_list fun y hy => trivial) ?_
  refine texts_cons (by decide) (texts_list fun y hy => trivial) ?_
  refine texts_cons (by decide) (trivial) ?_
  refine texts_cons (by decide) (trivial) ?_
  refine texts_cons (by decide) (trivial) ?_
  refine texts_cons (by decide) (trivial) ?_
  refine texts_cons (by decide) (trivial) ?_
  refine texts_cons (by decide) (trivial) ?_
  refine texts_cons (by decide) (trivial) ?_
  refine texts_cons (by decide) (trivial) ?_
  refine texts_cons (by decide) (trivial) ?_
  refine texts_cons (by decide) (trivial) ?_
  refine texts_cons (by decide) (trivial) ?_
  refine texts_cons (by decide) (trivial) ?_
  refine texts_cons (by decide) (texts_list fun y hy => FrameData.asdict_texts y) ?_
  refine texts_cons (by decide) (trivial) ?_
  refine texts_cons (by decide) (texts_list fun y hy => trivial) ?_
  refine texts_cons (by decide) (texts_list fun y hy => trivial) ?_
  refine texts_cons (by decide) (texts_list fun y hy => trivial) ?_
  refine texts_cons (by decide) (texts_list fun y hy => trivial) ?_
  refine texts_cons (by decide) (texts_list fun y hy => trivial) ?_
  refine texts_cons (by decide) (trivial) ?_
  refine texts_cons (by decide) (trivial) ?_
  exact texts_nil

theorem TileSize.asdict_texts (x : TileSize) : (x.asdict).Texts := by
  refine texts_dict ?_
  refine texts_cons (by decide) (trivial) ?_
  refine texts_cons (by decide) (trivial) ?_
  refine texts_cons (by decide) (trivial) ?_
  exact texts_nil

theorem TerrainBlock.asdict_texts {v : Version} {x : TerrainBlock} (h : TerrainBlock.WF v x) : (x.asdict).Texts := by
  refine texts_dict ?_
  refine texts_cons (by decide) (trivial) ?_
  refine texts_cons (by decide) (trivial) ?_
  refine texts_cons (by decide) (trivial) ?_
  refine texts_cons (by decide) (trivial) ?_
  refine texts_cons (by decide) (trivial) ?_
  refine texts_cons (by decide) (trivial) ?_
  refine texts_cons (by decide) (texts_list fun y hy => TileSize.asdict_texts y) ?_
  refine texts_cons (by decide) (trivial) ?_
  refine texts_cons (by decide) (texts_list fun y hy => Terrain.asdict_texts (h.terrains.2 y hy)) ?_
  refine texts_cons (by decide) (trivial) ?_
  refine texts_cons (by decide) (trivial) ?_
  refine texts_cons (by decide) (trivial) ?_
  refine texts_cons (by decide) (trivial) ?_
  refine texts_cons (by decide) (trivial) ?_
  refine texts_cons (by decide) (trivial) ?_
  refine texts_cons (by decide) (trivial) ?_
  refine texts_cons (by decide) (trivial) ?_
  refine texts_cons (by decide) (trivial) ?_
  refine texts_cons (by decide) (trivial) ?_
  refine texts_cons (by decide) (trivial) ?_
  refine texts_cons (by decide) (trivial) ?_
  refine texts_cons (by decide) (trivial) ?_
  refine texts_cons (by decide) (trivial) ?_
  refine texts_cons (by decide) (trivial) ?_
  refine texts_cons (by decide) (trivial) ?_
  refine texts_cons (by decide) (trivial) ?_
  refine texts_cons (by decide) (trivial) ?_
  refine texts_cons (by decide) (trivial) ?_
  refine texts_cons (by decide) (trivial) ?_
  refine texts_cons (by decide) (trivial) ?_
  refine texts_cons (by decide) (trivial) ?_
  refine texts_cons (by decide) (trivial) ?_
  refine texts_cons (by decide) (trivial) ?_
  refine texts_cons (by decide) (trivial) ?_
  exact texts_nil

theorem MapUnit.asdict_texts (x : MapUnit) : (x.asdict).Texts := by
  refine texts_dict ?_
  refine texts_cons (by decide) (trivial) ?_
  refine texts_cons (by decide) (trivial) ?_
  refine texts_cons (by decide) (trivial) ?_
  refine texts_cons (by decide) (trivial) ?_
  refine texts_cons (by decide) (trivial) ?_
  refine texts_cons (by decide) (trivial) ?_
  refine texts_cons (by decide) (trivial) ?_
  refine texts_cons (by decide) (trivial) ?_
  refine texts_cons (by decide) (trivial) ?_
  refine texts_cons (by decide) (trivial) ?_
  refine texts_cons (by decide) (trivial) ?_
  refine texts_cons (by decide) (trivial) ?_
  refine texts_cons (by decide) (trivial) ?_
  exact texts_nil

theorem MapTerrain.asdict_texts (x : MapTerrain) : (x.asdict).Texts := by
  refine texts_dict ?_
  refine texts_cons (by decide) (trivial) ?_
  refine texts_cons (by decide) (trivial) ?_
  refine texts_cons (by decide) (trivial) ?_
  refine texts_cons (by decide) (trivial) ?_
  refine texts_cons (by decide) (trivial) ?_
  refine texts_cons (by decide) (trivial) ?_
  exact texts_nil

theorem MapLand.asdict_texts (x : MapLand) : (x.asdict).Texts := by
  refine texts_dict ?_
  refine texts_cons (by decide) (trivial) ?_
  refine texts_cons (by decide) (trivial) ?_
  refine texts_cons (by decide) (trivial) ?_
  refine texts_cons (by decide) (trivial) ?_
  refine texts_cons (by decide) (trivial) ?_
  refine texts_cons (by decide) (trivial) ?_
  refine texts_cons (by decide) (trivial) ?_
  refine texts_cons (by decide) (trivial) ?_
  refine texts_cons (by decide) (trivial) ?_
  refine texts_cons (by decide) (trivial) ?_
  refine texts_cons (by decide) (trivial) ?_
  refine texts_cons (by decide) (trivial) ?_
  refine texts_cons (by decide) (trivial) ?_
  refine texts_cons (by decide) (trivial) ?_
  refine texts_cons (by decide) (trivial) ?_
  exact texts_nil

theorem MapElevation.asdict_texts (x : MapElevation) : (x.asdict).Texts := by
  refine texts_dict ?_
  refine texts_cons (by decide) (trivial) ?_
  refine texts_cons (by decide) (trivial) ?_
  refine texts_cons (by decide) (trivial) ?_
  refine texts_cons (by decide) (trivial) ?_
  refine texts_cons (by decide) (trivial) ?_
  refine texts_cons (by decide) (trivial) ?_
  exact texts_nil

theorem MapInfo.asdict_texts (x : MapInfo) : (x.asdict).Texts := by
  refine texts_dict ?_
  refine texts_cons (by decide) (trivial) ?_
  refine texts_cons (by decide) (trivial) ?_
  refine texts_cons (by decide) (trivial) ?_
  refine texts_cons (by decide) (trivial) ?_
  refine texts_cons (by decide) (trivial) ?_
  refine texts_cons (by decide) (trivial) ?_
  refine texts_cons (by decide) (trivial) ?_
  refine texts_cons (by decide) (trivial) ?_
  refine texts_cons (by decide) (trivial) ?_
  refine texts_cons (by decide) (trivial) ?_
  refine texts_cons (by decide) (trivial) ?_
  refine texts_cons (by decide) (trivial) ?_
  refine texts_cons (by decide) (texts_list fun y hy => MapLand.asdict_texts y) ?_
  refine texts_cons (by decide) (trivial) ?_
  refine texts_cons (by decide) (trivial) ?_
  refine texts_cons (by decide) (texts_list fun y hy => MapTerrain.asdict_texts y) ?_
  refine texts_cons (by decide) (trivial) ?_
  refine texts_cons (by decide) (trivial) ?_
  refine texts_cons (by decide) (texts_list fun y hy => MapUnit.asdict_texts y) ?_
  refine texts_cons (by decide) (trivial) ?_
  refine texts_cons (by decide) (trivial) ?_
  refine texts_cons (by decide) (texts_list fun y hy => MapElevation.asdict_texts y) ?_
  exact texts_nil

theorem RandomMaps.asdict_texts (x : RandomMaps) : (x.asdict).Texts := by
  refine texts_dict ?_
  refine texts_cons (by decide) (trivial) ?_
  refine texts_cons (by decide) (texts_list fun y hy => MapInfo.asdict_texts y) ?_
  refine texts_cons (by decide) (texts_list fun y hy => MapInfo.asdict_texts y) ?_
  exact texts_nil

theorem ResearchResourceCost.asdict_texts (x : ResearchResourceCost) : (x.asdict).Texts := by
  refine texts_dict ?_
  refine texts_cons (by decide) (trivial) ?_
  refine texts_cons (by decide) (trivial) ?_
  refine texts_cons (by decide) (trivial) ?_
  exact texts_nil

theorem ResearchLocation.asdict_texts (x : ResearchLocation) : (x.asdict).Texts := by
  refine texts_dict ?_
  refine texts_cons (by decide) (trivial) ?_
  refine texts_cons (by decide) (trivial) ?_
  refine texts_cons (by decide) (trivial) ?_
  refine texts_cons (by decide) (trivial) ?_
  exact texts_nil

theorem Tech.asdict_texts {v : Version} {x : Tech} (h : Tech.WF v x) : (x.asdict).Texts := by
  refine texts_dict ?_
  refine texts_cons (by decide) (texts_list fun y hy => trivial) ?_
  refine texts_cons (by decide) (texts_list fun y hy => ResearchResourceCost.asdict_texts y) ?_
  refine texts_cons (by decide) (trivial) ?_
  refine texts_cons (by decide) (trivial) ?_
  refine texts_cons (by decide) (trivial) ?_
  refine texts_cons (by decide) (trivial) ?_
  refine texts_cons (by decide) (trivial) ?_
  refine texts_cons (by decide) (trivial) ?_
  refine texts_cons (by decide) (trivial) ?_
  refine texts_cons (by decide) (trivial) ?_
  refine texts_cons (by decide) (trivial) ?_
  refine texts_cons (by decide) (trivial) ?_
  refine texts_cons (by decide) (texts_str h.name) ?_
  refine texts_cons (by decide) (trivial) ?_
  refine texts_cons (by decide) (texts_list fun y hy => ResearchLocation.asdict_texts y) ?_
  exact texts_nil

theorem Common.asdict_texts (x : Common) : (x.asdict).Texts := by
  refine texts_dict ?_
  refine texts_cons (by decide) (trivial) ?_
  refine texts_cons (by decide) (texts_list fun y hy => trivial) ?_
  refine texts_cons (by decide) (texts_list fun y hy => trivial) ?_
  exact texts_nil

theorem TechTreeAge.asdict_texts (x : TechTreeAge) : (x.asdict).Texts := by
  refine texts_dict ?_
  refine texts_cons (by decide) (trivial) ?_
  refine texts_cons (by decide) (trivial) ?_
  refine texts_cons (by decide) (texts_list fun y hy => trivial) ?_
  refine texts_cons (by decide) (texts_list fun y hy => trivial) ?_
  refine texts_cons (by decide) (texts_list fun y hy => trivial) ?_
  refine texts_cons (by decide) (Common.asdict_texts _) ?_
  refine texts_cons (by decide) (trivial) ?_
  refine texts_cons (by decide) (texts_list fun y hy => trivial) ?_
  refine texts_cons (by decide) (texts_list fun y hy => trivial) ?_
  refine texts_cons (by decide) (trivial) ?_
  refine texts_cons (by decide) (trivial) ?_
  exact texts_nil

theorem BuildingConnection.asdict_texts (x : BuildingConnection) : (x.asdict).Texts := by
  refine texts_dict ?_
  refine texts_cons (by decide) (trivial) ?_
  refine texts_cons (by decide) (trivial) ?_
  refine texts_cons (by decide) (texts_list fun y hy => trivial) ?_
  refine texts_cons (by decide) (texts_list fun y hy => trivial) ?_
  refine texts_cons (by decide) (texts_list fun y hy => trivial) ?_
  refine texts_cons (by decide) (Common.asdict_texts _) ?_
  refine texts_cons (by decide) (trivial) ?_
  refine texts_cons (by decide) (texts_list fun y hy => trivial) ?_
  refine texts_cons (by decide) (texts_list fun y hy => trivial) ?_
  refine texts_cons (by decide) (trivial) ?_
  refine texts_cons (by decide) (trivial) ?_
  exact texts_nil

theorem UnitConnection.asdict_texts (x : UnitConnection) : (x.asdict).Texts := by
  refine texts_dict ?_
  refine texts_cons (by decide) (trivial) ?_
  refine texts_cons (by decide) (trivial) ?_
  refine texts_cons (by decide) (trivial) ?_
  refine texts_cons (by decide) (Common.asdict_texts _) ?_
  refine texts_cons (by decide) (trivial) ?_
  refine texts_cons (by decide) (texts_list fun y hy => trivial) ?_
  refine texts_cons (by decide) (trivial) ?_
  refine texts_cons (by decide) (trivial) ?_
  refine texts_cons (by decide) (trivial) ?_
  refine texts_cons (by decide) (trivial) ?_
  exact texts_nil

theorem ResearchConnection.asdict_texts (x : ResearchConnection) : (x.asdict).Texts := by
  refine texts_dict ?_
  refine texts_cons (by decide) (trivial) ?_
  refine texts_cons (by decide) (trivial) ?_
  refine texts_cons (by decide) (trivial) ?_
  refine texts_cons (by decide) (texts_list fun y hy => trivial) ?_
  refine texts_cons (by decide) (texts_list fun y hy => trivial) ?_
  refine texts_cons (by decide) (texts_list fun y hy => trivial) ?_
  refine texts_cons (by decide) (Common.asdict_texts _) ?_
  refine texts_cons (by decide) (trivial) ?_
  refine texts_cons (by decide) (trivial) ?_
  refine texts_cons (by decide) (trivial) ?_
  exact texts_nil

theorem TechTree.asdict_texts (x : TechTree) : (x.asdict).Texts := by
  refine texts_dict ?_
  refine texts_cons (by decide) (trivial) ?_
  refine texts_cons (by decide) (texts_list fun y hy => TechTreeAge.asdict_texts y) ?_
  refine texts_cons (by decide) (texts_list fun y hy => BuildingConnection.asdict_texts y) ?_
  refine texts_cons (by decide) (texts_list fun y hy => UnitConnection.asdict_texts y) ?_
  refine texts_cons (by decide) (texts_list fun y hy => ResearchConnection.asdict_texts y) ?_
  exact texts_nil

theorem Task.asdict_texts (x : Task) : (x.asdict).Texts := by
  refine texts_dict ?_
  refine texts_cons (by decide) (trivial) ?_
  refine texts_cons (by decide) (trivial) ?_
  refine texts_cons (by decide) (trivial) ?_
  refine texts_cons (by decide) (trivial) ?_
  refine texts_cons (by decide) (trivial) ?_
  refine texts_cons (by decide) (trivial) ?_
  refine texts_cons (by decide) (trivial) ?_
  refine texts_cons (by decide) (trivial) ?_
  refine texts_cons (by decide) (trivial) ?_
  refine texts_cons (by decide) (trivial) ?_
  refine texts_cons (by decide) (trivial) ?_
  refine texts_cons (by decide) (trivial) ?_
  refine texts_cons (by decide) (trivial) ?_
  refine texts_cons (by decide) (trivial) ?_
  refine texts_cons (by decide) (trivial) ?_
  refine texts_cons (by decide) (trivial) ?_
  refine texts_cons (by decide) (trivial) ?_
  refine texts_cons (by decide) (trivial) ?_
  refine texts_cons (by decide) (trivial) ?_
  refine texts_cons (by decide) (trivial) ?_
  refine texts_cons (by decide) (trivial) ?_
  refine texts_cons (by decide) (trivial) ?_
  refine texts_cons (by decide) (trivial) ?_
  refine texts_cons (by decide) (trivial) ?_
  refine texts_cons (by decide) (trivial) ?_
  refine texts_cons (by decide) (trivial) ?_
  refine texts_cons (by decide) (trivial) ?_
  refine texts_cons (by decide) (trivial) ?_
  refine texts_cons (by decide) (trivial) ?_
  refine texts_cons (by decide) (trivial) ?_
  refine texts_cons (by decide) (trivial) ?_
  refine texts_cons (by decide) (trivial) ?_
  exact texts_nil

theorem ResourceStorage.asdict_texts (x : ResourceStorage) : (x.asdict).Texts := by
  refine texts_dict ?_
  refine texts_cons (by decide) (trivial) ?_
  refine texts_cons (by decide) (trivial) ?_
  refine texts_cons (by decide) (trivial) ?_
  exact texts_nil

theorem DamageGraphic.asdict_texts (x : DamageGraphic) : (x.asdict).Texts := by
  refine texts_dict ?_
  refine texts_cons (by decide) (trivial) ?_
  refine texts_cons (by decide) (trivial) ?_
  refine texts_cons (by decide) (trivial) ?_
  exact texts_nil

theorem DeadFish.asdict_texts (x : DeadFish) : (x.asdict).Texts := by
  refine texts_dict ?_
  refine texts_cons (by decide) (trivial) ?_
  refine texts_cons (by decide) (trivial) ?_
  refine texts_cons (by decide) (trivial) ?_
  refine texts_cons (by decide) (trivial) ?_
  refine texts_cons (by decide) (trivial) ?_
  refine texts_cons (by decide) (trivial) ?_
  refine texts_cons (by decide) (trivial) ?_
  refine texts_cons (by decide) (trivial) ?_
  refine texts_cons (by decide) (trivial) ?_
  refine texts_cons (by decide) (trivial) ?_
  refine texts_cons (by decide) (trivial) ?_
  refine texts_cons (by decide) (trivial) ?_
  refine texts_cons (by decide) (trivial) ?_
  refine texts_cons (by decide) (trivial) ?_
  exact texts_nil

theorem Bird.asdict_texts (x : Bird) : (x.asdict).Texts := by
  refine texts_dict ?_
  refine texts_cons (by decide) (trivial) ?_
  refine texts_cons (by decide) (trivial) ?_
  refine texts_cons (by decide) (trivial) ?_
  refine texts_cons (by decide) (texts_list fun y hy => trivial) ?_
  refine texts_cons (by decide) (trivial) ?_
  refine texts_cons (by decide) (trivial) ?_
  refine texts_cons (by decide) (trivial) ?_
  refine texts_cons (by decide) (trivial) ?_
  refine texts_cons (by decide) (trivial) ?_
  refine texts_cons (by decide) (trivial) ?_
  refine texts_cons (by decide) (texts_list fun y hy => Task.asdict_texts y) ?_
  exact texts_nil

theorem AttackOrArmor.asdict_texts (x : AttackOrArmor) : (x.asdict).Texts := by
  refine texts_dict ?_
  refine texts_cons (by decide) (trivial) ?_
  refine texts_cons (by decide) (trivial) ?_
  exact texts_nil

theorem Type50.asdict_texts (x : Type50) : (x.asdict).Texts := by
  refine texts_dict ?_
  refine texts_cons (by decide) (trivial) ?_
  refine texts_cons (by decide) (texts_list fun y hy => AttackOrArmor.asdict_texts y) ?_
  refine texts_cons (by decide) (texts_list fun y hy => AttackOrArmor.asdict_texts y) ?_
  refine texts_cons (by decide) (trivial) ?_
  refine texts_cons (by decide) (trivial) ?_
  refine texts_cons (by decide) (trivial) ?_
  refine texts_cons (by decide) (trivial) ?_
  refine texts_cons (by decide) (trivial) ?_
  refine texts_cons (by decide) (trivial) ?_
  refine texts_cons (by decide) (trivial) ?_
  refine texts_cons (by decide) (trivial) ?_
  refine texts_cons (by decide) (trivial) ?_
  refine texts_cons (by decide) (texts_list fun y hy => trivial) ?_
  refine texts_cons (by decide) (trivial) ?_
  refine texts_cons (by decide) (trivial) ?_
  refine texts_cons (by decide) (trivial) ?_
  refine texts_cons (by decide) (trivial) ?_
  refine texts_cons (by decide) (trivial) ?_
  refine texts_cons (by decide) (trivial) ?_
  refine texts_cons (by decide) (trivial) ?_
  refine texts_cons (by decide) (trivial) ?_
  refine texts_cons (by decide) (trivial) ?_
  refine texts_cons (by decide) (trivial) ?_
  refine texts_cons (by decide) (trivial) ?_
  refine texts_cons (by decide) (trivial) ?_
  refine texts_cons (by decide) (trivial) ?_
  refine texts_cons (by decide) (trivial) ?_
  exact texts_nil

theorem Projectile.asdict_texts (x : Projectile) : (x.asdict).Texts := by
  refine texts_dict ?_
  refine texts_cons (by decide) (trivial) ?_
  refine texts_cons (by decide) (trivial) ?_
  refine texts_cons (by decide) (trivial) ?_
  refine texts_cons (by decide) (trivial) ?_
  refine texts_cons (by decide) (trivial) ?_
  refine texts_cons (by decide) (trivial) ?_
  exact texts_nil

theorem ResourceCost.asdict_texts (x : ResourceCost) : (x.asdict).Texts := by
  refine texts_dict ?_
  refine texts_cons (by decide) (trivial) ?_
  refine texts_cons (by decide) (trivial) ?_
  refine texts_cons (by decide) (trivial) ?_
  exact texts_nil

theorem TrainLocation.asdict_texts (x : TrainLocation) : (x.asdict).Texts := by
  refine texts_dict ?_
  refine texts_cons (by decide) (trivial) ?_
  refine texts_cons (by decide) (trivial) ?_
  refine texts_cons (by decide) (trivial) ?_
  refine texts_cons (by decide) (trivial) ?_
  exact texts_nil

theorem Creatable.asdict_texts (old : Bool) (x : Creatable) : (x.asdict old).Texts := by
  refine texts_dict ?_
  refine texts_cons (by decide) (texts_list fun y hy => ResourceCost.asdict_texts y) ?_
  refine texts_cons (by decide) (texts_list fun y hy => TrainLocation.asdict_texts y) ?_
  refine texts_cons (by decide) (trivial) ?_
  refine texts_cons (by decide) (trivial) ?_
  refine texts_cons (by decide) (trivial) ?_
  refine texts_cons (by decide) (trivial) ?_
  refine texts_cons (by decide) (trivial) ?_
  refine texts_cons (by decide) (trivial) ?_
  refine texts_cons (by decide) (trivial) ?_
  refine texts_cons (by decide) (trivial) ?_
  refine texts_cons (by decide) (trivial) ?_
  refine texts_cons (by decide) (trivial) ?_
  refine texts_cons (by decide) (trivial) ?_
  refine texts_cons (by decide) (trivial) ?_
  refine texts_cons (by decide) (trivial) ?_
  refine texts_cons (by decide) (trivial) ?_
  refine texts_cons (by decide) (trivial) ?_
  refine texts_cons (by decide) (trivial) ?_
  refine texts_cons (by decide) (texts_inv old _) ?_
  refine texts_cons (by decide) (trivial) ?_
  refine texts_cons (by decide) (trivial) ?_
  refine texts_cons (by decide) (trivial) ?_
  refine texts_cons (by decide) (trivial) ?_
  refine texts_cons (by decide) (trivial) ?_
  refine texts_cons (by decide) (trivial) ?_
  refine texts_cons (by decide) (trivial) ?_
  refine texts_cons (by decide) (trivial) ?_
  refine texts_cons (by decide) (trivial) ?_
  refine texts_cons (by decide) (texts_list fun y hy => trivial) ?_
  refine texts_cons (by decide) (trivial) ?_
  refine texts_cons (by decide) (trivial) ?_
  refine texts_cons (by decide) (trivial) ?_
  refine texts_cons (by decide) (trivial) ?_
  exact texts_nil

theorem BuildingAnnex.asdict_texts (x : BuildingAnnex) : (x.asdict).Texts := by
  refine texts_dict ?_
  refine texts_cons (by decide) (trivial) ?_
  refine texts_cons (by decide) (trivial) ?_
  refine texts_cons (by decide) (trivial) ?_
  exact texts_nil

theorem Building.asdict_texts (x : Building) : (x.asdict).Texts := by
  refine texts_dict ?_
  refine texts_cons (by decide) (trivial) ?_
  refine texts_cons (by decide) (trivial) ?_
  refine texts_cons (by decide) (trivial) ?_
  refine texts_cons (by decide) (trivial) ?_
  refine texts_cons (by decide) (trivial) ?_
  refine texts_cons (by decide) (trivial) ?_
  refine texts_cons (by decide) (trivial) ?_
  refine texts_cons (by decide) (trivial) ?_
  refine texts_cons (by decide) (trivial) ?_
  refine texts_cons (by decide) (trivial) ?_
  refine texts_cons (by decide) (trivial) ?_
  refine texts_cons (by decide) (trivial) ?_
  refine texts_cons (by decide) (trivial) ?_
  refine texts_cons (by decide) (trivial) ?_
  refine texts_cons (by decide) (texts_list fun y hy => BuildingAnnex.asdict_texts y) ?_
  refine texts_cons (by decide) (trivial) ?_
  refine texts_cons (by decide) (trivial) ?_
  refine texts_cons (by decide) (trivial) ?_
  refine texts_cons (by decide) (trivial) ?_
  refine texts_cons (by decide) (trivial) ?_
  refine texts_cons (by decide) (trivial) ?_
  refine texts_cons (by decide) (trivial) ?_
  refine texts_cons (by decide) (trivial) ?_
  refine texts_cons (by decide) (trivial) ?_
  refine texts_cons (by decide) (trivial) ?_
  refine texts_cons (by decide) (texts_list fun y hy => trivial) ?_
  exact texts_nil

theorem Unit.asdict_texts (old : Bool) {v : Version} {x : Unit} (h : Unit.WF v x) : (x.asdict old).Texts := by
  refine texts_dict ?_
  refine texts_cons (by decide) (trivial) ?_
  refine texts_cons (by decide) (trivial) ?_
  refine texts_cons (by decide) (trivial) ?_
  refine texts_cons (by decide) (trivial) ?_
  refine texts_cons (by decide) (trivial) ?_
  refine texts_cons (by decide) (texts_list fun y hy => trivial) ?_
  refine texts_cons (by decide) (trivial) ?_
  refine texts_cons (by decide) (trivial) ?_
  refine texts_cons (by decide) (trivial) ?_
  refine texts_cons (by decide) (trivial) ?_
  refine texts_cons (by decide) (trivial) ?_
  refine texts_cons (by decide) (trivial) ?_
  refine texts_cons (by decide) (trivial) ?_
  refine texts_cons (by decide) (trivial) ?_
  refine texts_cons (by decide) (trivial) ?_
  refine texts_cons (by decide) (trivial) ?_
  refine texts_cons (by decide) (trivial) ?_
  refine texts_cons (by decide) (trivial) ?_
  refine texts_cons (by decide) (trivial) ?_
  refine texts_cons (by decide) (trivial) ?_
  refine texts_cons (by decide) (trivial) ?_
  refine texts_cons (by decide) (trivial) ?_
  refine texts_cons (by decide) (trivial) ?_
  refine texts_cons (by decide) (trivial) ?_
  refine texts_cons (by decide) (trivial) ?_
  refine texts_cons (by decide) (trivial) ?_
  refine texts_cons (by decide) (texts_list fun y hy => trivial) ?_
  refine texts_cons (by decide) (texts_list fun y hy => trivial) ?_
  refine texts_cons (by decide) (texts_list fun y hy => trivial) ?_
  refine texts_cons (by decide) (trivial) ?_
  refine texts_cons (by decide) (trivial) ?_
  refine texts_cons (by decide) (trivial) ?_
  refine texts_cons (by decide) (trivial) ?_
  refine texts_cons (by decide) (trivial) ?_
  refine texts_cons (by decide) (trivial) ?_
  refine texts_cons (by decide) (trivial) ?_
  refine texts_cons (by decide) (trivial) ?_
  refine texts_cons (by decide) (trivial) ?_
  refine texts_cons (by decide) (trivial) ?_
  refine texts_cons (by decide) (trivial) ?_
  refine texts_cons (by decide) (trivial) ?_
  refine texts_cons (by decide) (trivial) ?_
  refine texts_cons (by decide) (trivial) ?_
  refine texts_cons (by decide) (trivial) ?_
  refine texts_cons (by decide) (trivial) ?_
  refine texts_cons (by decide) (trivial) ?_
  refine texts_cons (by decide) (trivial) ?_
  refine texts_cons (by decide) (trivial) ?_
  refine texts_cons (by decide) (trivial) ?_
  refine texts_cons (by decide) (trivial) ?_
  refine texts_cons (by decide) (trivial) ?_
  refine texts_cons (by decide) (trivial) ?_
  refine texts_cons (by decide) (trivial) ?_
  refine texts_cons (by decide) (trivial) ?_
  refine texts_cons (by decide) (trivial) ?_
  refine texts_cons (by decide) (trivial) ?_
  refine texts_cons (by decide) (trivial) ?_
  refine texts_cons (by decide) (trivial) ?_
  refine texts_cons (by decide) (trivial) ?_
  refine texts_cons (by decide) (trivial) ?_
  refine texts_cons (by decide) (trivial) ?_
  refine texts_cons (by decide) (trivial) ?_
  refine texts_cons (by decide) (texts_list fun y hy => ResourceStorage.asdict_texts y) ?_
  refine texts_cons (by decide) (texts_list fun y hy => DamageGraphic.asdict_texts y) ?_
  refine texts_cons (by decide) (trivial) ?_
  refine texts_cons (by decide) (trivial) ?_
  refine texts_cons (by decide) (trivial) ?_
  refine texts_cons (by decide) (trivial) ?_
  refine texts_cons (by decide) (trivial) ?_
  refine texts_cons (by decide) (trivial) ?_
  refine texts_cons (by decide) (trivial) ?_
  refine texts_cons (by decide) (trivial) ?_
  refine texts_cons (by decide) (texts_str h.name) ?_
  refine texts_cons (by decide) (trivial) ?_
  refine texts_cons (by decide) (trivial) ?_
  refine texts_cons (by decide) (texts_opt fun y _ => trivial) ?_
  refine texts_cons (by decide) (texts_opt fun y _ => DeadFish.asdict_texts y) ?_
  refine texts_cons (by decide) (texts_opt fun y _ => Bird.asdict_texts y) ?_
  refine texts_cons (by decide) (texts_opt fun y _ => Type50.asdict_texts y) ?_
  refine texts_cons (by decide) (texts_opt fun y _ => Projectile.asdict_texts y) ?_
  refine texts_cons (by decide) (texts_opt fun y _ => Creatable.asdict_texts old y) ?_
  refine texts_cons (by decide) (texts_opt fun y _ => Building.asdict_texts y) ?_
  exact texts_nil

theorem UnitHeaders.asdict_texts (x : UnitHeaders) : (x.asdict).Texts := by
  refine texts_dict ?_
  refine texts_cons (by decide) (trivial) ?_
  refine texts_cons (by decide) (texts_opt fun l _ => texts_list fun y _ => Task.asdict_texts y) ?_
  exact texts_nil

theorem Civ.asdict_texts (old : Bool) {v : Version} {x : Civ} (h : Civ.WF v x) : (x.asdict old).Texts := by
  refine texts_dict ?_
  refine texts_cons (by decide) (trivial) ?_
  refine texts_cons (by decide) (texts_str h.name) ?_
  refine texts_cons (by decide) (trivial) ?_
  refine texts_cons (by decide) (trivial) ?_
  refine texts_cons (by decide) (texts_list fun y hy => trivial) ?_
  refine texts_cons (by decide) (trivial) ?_
  refine texts_cons (by decide) (texts_list fun o ho => texts_opt fun y e => Unit.asdict_texts old ((h.units.2 o ho) y e)) ?_
  exact texts_nil

theorem version_texts {s : PyStr} {v : Version} (h : (s, v) ∈ versionNames) : (PyTree.str s).Texts := by
  have : (versionNames.all fun p => p.1.all isScalar) = true := by decide
  exact List.all_eq_true.1 (List.all_eq_true.1 this _ h)

theorem DatFile.asdict_texts (old : Bool) {v : Version} {x : DatFile} (h : DatFile.WFAt v x) : (x.asdict old).Texts := by
  refine texts_dict ?_
  refine texts_cons (by decide) (version_texts h.version) ?_
  refine texts_cons (by decide) (texts_list fun y hy => trivial) ?_
  refine texts_cons (by decide) (texts_list fun y hy => trivial) ?_
  refine texts_cons (by decide) (texts_list fun y hy => TerrainRestriction.asdict_texts y) ?_
  refine texts_cons (by decide) (texts_list fun y hy => PlayerColour.asdict_texts y) ?_
  refine texts_cons (by decide) (texts_list fun y hy => Sound.asdict_texts (h.sounds.2 y hy)) ?_
  refine texts_cons (by decide) (texts_list fun o ho => texts_opt fun y e => Graphic.asdict_texts ((h.graphics.2 o ho) y e)) ?_
  refine texts_cons (by decide) (TerrainBlock.asdict_texts (h.terrain_block)) ?_
  refine texts_cons (by decide) (RandomMaps.asdict_texts _) ?_
  refine texts_cons (by decide) (texts_list fun y hy => Effect.asdict_texts (h.effects.2 y hy)) ?_
  refine texts_cons (by decide) (texts_list fun y hy => UnitHeaders.asdict_texts y) ?_
  refine texts_cons (by decide) (texts_list fun y hy => Civ.asdict_texts old (h.civs.2 y hy)) ?_
  refine texts_cons (by decide) (texts_list fun y hy => Tech.asdict_texts (h.techs.2 y hy)) ?_
  refine texts_cons (by decide) (trivial) ?_
  refine texts_cons (by decide) (trivial) ?_
  refine texts_cons (by decide) (trivial) ?_
  refine texts_cons (by decide) (trivial) ?_
  refine texts_cons (by decide) (trivial) ?_
  refine texts_cons (by decide) (trivial) ?_
  refine texts_cons (by decide) (trivial) ?_
  refine texts_cons (by decide) (TechTree.asdict_texts _) ?_
  exact texts_nil

end Genie
