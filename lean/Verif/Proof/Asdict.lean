import Verif.Model.Asdict
import Verif.Spec.Classes
import Verif.Proof.Json
/-! # Trees determine the objects (generated by `tools/gen_asdict.py`) -/

namespace Genie
open PyTree

theorem int_inj {a b : Int} (h : PyTree.int a = .int b) : a = b := PyTree.int.inj h
theorem float_inj {a b : PyFloat} (h : PyTree.float a = .float b) : a = b := PyTree.float.inj h
theorem str_inj {a b : PyStr} (h : PyTree.str a = .str b) : a = b := PyTree.str.inj h

theorem list_map_inj {f : α → PyTree} (hf : ∀ {x y}, f x = f y → x = y) {a b : List α} (h : PyTree.list (a.map f) = .list (b.map f)) : a = b := by
  have h := PyTree.list.inj h
  induction a generalizing b with
  | nil => cases b with
    | nil => rfl
    | cons _ _ => cases h
  | cons x a ih => cases b with
    | nil => cases h
    | cons y b =>
      simp only [List.map_cons, List.cons.injEq] at h
      rw [hf h.1, ih h.2 (h := by rw [h.2])]

theorem optTree_inj {f : α → PyTree} (hf : ∀ {x y}, f x = f y → x = y) (hn : ∀ x, f x ≠ .none) {a b : Option α}
    (h : optTree f a = optTree f b) : a = b := by
  cases a with
  | none => cases b with
    | none => rfl
    | some y => exact absurd h.symm (hn y)
  | some x => cases b with
    | none => exact absurd h (hn x)
    | some y => rw [hf h]

theorem invulnerabilityTree_inj (old : Bool) {x y : PyFloat} (h : invulnerabilityTree old x = invulnerabilityTree old y) : x = y := by
  unfold invulnerabilityTree at h
  split at h <;> split at h
  · simp_all
  · cases h
  · cases h
  · exact float_inj h

theorem items_cons {k : PyStr} {t t' : PyTree} {ts ts' : List (PyStr × PyTree)} (h : (k, t) :: ts = (k, t') :: ts') : t = t' ∧ ts = ts' := by
  injection h with h1 h2
  exact ⟨(Prod.mk.inj h1).2, h2⟩

theorem EffectCommand.asdict_inj {a b : EffectCommand} (h : a.asdict = b.asdict) : a = b := by
  have h := PyTree.dict.inj h
  cases a; cases b
  dsimp only at h
  obtain ⟨h0, h⟩ := items_cons h
  obtain ⟨h1, h⟩ := items_cons h
  obtain ⟨h2, h⟩ := items_cons h
  obtain ⟨h3, h⟩ := items_cons h
  obtain ⟨h4, h⟩ := items_cons h
  cases int_inj h0
  cases int_inj h1
  cases int_inj h2
  cases int_inj h3
  cases float_inj h4
  rfl

theorem Effect.asdict_inj {a b : Effect} (h : a.asdict = b.asdict) : a = b := by
  have h := PyTree.dict.inj h
  cases a; cases b
  dsimp only at h
  obtain ⟨h0, h⟩ := items_cons h
  obtain ⟨h1, h⟩ := items_cons h
  cases str_inj h0
  cases list_map_inj EffectCommand.asdict_inj h1
  rfl

theorem SoundItem.asdict_inj {a b : SoundItem} (h : a.asdict = b.asdict) : a = b := by
  have h := PyTree.dict.inj h
  cases a; cases b
  dsimp only at h
  obtain ⟨h0, h⟩ := items_cons h
  obtain ⟨h1, h⟩ := items_cons h
  obtain ⟨h2, h⟩ := items_cons h
  obtain ⟨h3, h⟩ := items_cons h
  obtain ⟨h4, h⟩ := items_cons h
  cases str_inj h0
  cases int_inj h1
  cases int_inj h2
  cases int_inj h3
  cases int_inj h4
  rfl

theorem Sound.asdict_inj {a b : Sound} (h : a.asdict = b.asdict) : a = b := by
  have h := PyTree.dict.inj h
  cases a; cases b
  dsimp only at h
  obtain ⟨h0, h⟩ := items_cons h
  obtain ⟨h1, h⟩ := items_cons h
  obtain ⟨h2, h⟩ := items_cons h
  obtain ⟨h3, h⟩ := items_cons h
  obtain ⟨h4, h⟩ := items_cons h
  cases int_inj h0
  cases int_inj h1
  cases int_inj h2
  cases int_inj h3
  cases list_map_inj SoundItem.asdict_inj h4
  rfl

theorem PlayerColour.asdict_inj {a b : PlayerColour} (h : a.asdict = b.asdict) : a = b := by
  have h := PyTree.dict.inj h
  cases a; cases b
  dsimp only at h
  obtain ⟨h0, h⟩ := items_cons h
  obtain ⟨h1, h⟩ := items_cons h
  obtain ⟨h2, h⟩ := items_cons h
  obtain ⟨h3, h⟩ := items_cons h
  obtain ⟨h4, h⟩ := items_cons h
  obtain ⟨h5, h⟩ := items_cons h
  obtain ⟨h6, h⟩ := items_cons h
  obtain ⟨h7, h⟩ := items_cons h
  obtain ⟨h8, h⟩ := items_cons h
  cases int_inj h0
  cases int_inj h1
  cases int_inj h2
  cases int_inj h3
  cases int_inj h4
  cases int_inj h5
  cases int_inj h6
  cases int_inj h7
  cases int_inj h8
  rfl

theorem GraphicDelta.asdict_inj {a b : GraphicDelta} (h : a.asdict = b.asdict) : a = b := by
  have h := PyTree.dict.inj h
  cases a; cases b
  dsimp only at h
  obtain ⟨h0, h⟩ := items_cons h
  obtain ⟨h1, h⟩ := items_cons h
  obtain ⟨h2, h⟩ := items_cons h
  obtain ⟨h3, h⟩ := items_cons h
  obtain ⟨h4, h⟩ := items_cons h
  obtain ⟨h5, h⟩ := items_cons h
  obtain ⟨h6, h⟩ := items_cons h
  cases int_inj h0
  cases int_inj h1
  cases int_inj h2
  cases int_inj h3
  cases int_inj h4
  cases int_inj h5
  cases int_inj h6
  rfl

theorem GraphicAngleSound.asdict_inj {a b : GraphicAngleSound} (h : a.asdict = b.asdict) : a = b := by
  have h := PyTree.dict.inj h
  cases a; cases b
  dsimp only at h
  obtain ⟨h0, h⟩ := items_cons h
  obtain ⟨h1, h⟩ := items_cons h
  obtain ⟨h2, h⟩ := items_cons h
  obtain ⟨h3, h⟩ := items_cons h
  obtain ⟨h4, h⟩ := items_cons h
  obtain ⟨h5, h⟩ := items_cons h
  obtain ⟨h6, h⟩ := items_cons h
  obtain ⟨h7, h⟩ := items_cons h
  obtain ⟨h8, h⟩ := items_cons h
  cases int_inj h0
  cases int_inj h1
  cases int_inj h2
  cases int_inj h3
  cases int_inj h4
  cases int_inj h5
  cases int_inj h6
  cases int_inj h7
  cases int_inj h8
  rfl

theorem Graphic.asdict_inj {a b : Graphic} (h : a.asdict = b.asdict) : a = b := by
  have h := PyTree.dict.inj h
  cases a; cases b
  dsimp only at h
  obtain ⟨h0, h⟩ := items_cons h
  obtain ⟨h1, h⟩ := items_cons h
  obtain ⟨h2, h⟩ := items_cons h
  obtain ⟨h3, h⟩ := items_cons h
  obtain ⟨h4, h⟩ := items_cons h
  obtain ⟨h5, h⟩ := items_cons h
  obtain ⟨h6, h⟩ := items_cons h
  obtain ⟨h7, h⟩ := items_cons h
  obtain ⟨h8, h⟩ := items_cons h
  obtain ⟨h9, h⟩ := items_cons h
  obtain ⟨h10, h⟩ := items_cons h
  obtain ⟨h11, h⟩ := items_cons h
  obtain ⟨h12, h⟩ := items_cons h
  obtain ⟨h13, h⟩ := items_cons h
  obtain ⟨h14, h⟩ := items_cons h
  obtain ⟨h15, h⟩ := items_cons h
  obtain ⟨h16, h⟩ := items_cons h
  obtain ⟨h17, h⟩ := items_cons h
  obtain ⟨h18, h⟩ := items_cons h
  obtain ⟨h19, h⟩ := items_cons h
  obtain ⟨h20, h⟩ := items_cons h
  obtain ⟨h21, h⟩ := items_cons h
  obtain ⟨h22, h⟩ := items_cons h
  obtain ⟨h23, h⟩ := items_cons h
  cases str_inj h0
  cases str_inj h1
  cases str_inj h2
  cases int_inj h3
  cases int_inj h4
  cases int_inj h5
  cases int_inj h6
  cases int_inj h7
  cases int_inj h8
  cases list_map_inj int_inj h9
  cases int_inj h10
  cases int_inj h11
  cases int_inj h12
  cases int_inj h13
  cases int_inj h14
  cases float_inj h15
  cases float_inj h16
  cases float_inj h17
  cases int_inj h18
  cases int_inj h19
  cases int_inj h20
  cases int_inj h21
  cases list_map_inj GraphicDelta.asdict_inj h22
  cases list_map_inj GraphicAngleSound.asdict_inj h23
  rfl

theorem TerrainPassGraphic.asdict_inj {a b : TerrainPassGraphic} (h : a.asdict = b.asdict) : a = b := by
  have h := PyTree.dict.inj h
  cases a; cases b
  dsimp only at h
  obtain ⟨h0, h⟩ := items_cons h
  obtain ⟨h1, h⟩ := items_cons h
  obtain ⟨h2, h⟩ := items_cons h
  obtain ⟨h3, h⟩ := items_cons h
  cases int_inj h0
  cases int_inj h1
  cases int_inj h2
  cases int_inj h3
  rfl

theorem TerrainRestriction.asdict_inj {a b : TerrainRestriction} (h : a.asdict = b.asdict) : a = b := by
  have h := PyTree.dict.inj h
  cases a; cases b
  dsimp only at h
  obtain ⟨h0, h⟩ := items_cons h
  obtain ⟨h1, h⟩ := items_cons h
  cases list_map_inj float_inj h0
  cases list_map_inj TerrainPassGraphic.asdict_inj h1
  rfl

theorem FrameData.asdict_inj {a b : FrameData} (h : a.asdict = b.asdict) : a = b := by
  have h := PyTree.dict.inj h
  cases a; cases b
  dsimp only at h
  obtain ⟨h0, h⟩ := items_cons h
  obtain ⟨h1, h⟩ := items_cons h
  obtain ⟨h2, h⟩ := items_cons h
  cases int_inj h0
  cases int_inj h1
  cases int_inj h2
  rfl

theorem Terrain.asdict_inj {a b : Terrain} (h : a.asdict = b.asdict) : a = b := by
  have h := PyTree.dict.inj h
  cases a; cases b
  dsimp only at h
  obtain ⟨h0, h⟩ := items_cons h
  obtain ⟨h1, h⟩ := items_cons h
  obtain ⟨h2, h⟩ := items_cons h
  obtain ⟨h3, h⟩ := items_cons h
  obtain ⟨h4, h⟩ := items_cons h
  obtain ⟨h5, h⟩ := items_cons h
  obtain ⟨h6, h⟩ := items_cons h
  obtain ⟨h7, h⟩ := items_cons h
  obtain ⟨h8, h⟩ := items_cons h
  obtain ⟨h9, h⟩ := items_cons h
  obtain ⟨h10, h⟩ := items_cons h
  obtain ⟨h11, h⟩ := items_cons h
  obtain ⟨h12, h⟩ := items_cons h
  obtain ⟨h13, h⟩ := items_cons h
  obtain ⟨h14, h⟩ := items_cons h
  obtain ⟨h15, h⟩ := items_cons h
  obtain ⟨h16, h⟩ := items_cons h
  obtain ⟨h17, h⟩ := items_cons h
  obtain ⟨h18, h⟩ := items_cons h
  obtain ⟨h19, h⟩ := items_cons h
  obtain ⟨h20, h⟩ := items_cons h
  obtain ⟨h21, h⟩ := items_cons h
  obtain ⟨h22, h⟩ := items_cons h
  obtain ⟨h23, h⟩ := items_cons h
  obtain ⟨h24, h⟩ := items_cons h
  obtain ⟨h25, h⟩ := items_cons h
  obtain ⟨h26, h⟩ := items_cons h
  obtain ⟨h27, h⟩ := items_cons h
  obtain ⟨h28, h⟩ := items_cons h
  obtain ⟨h29, h⟩ := items_cons h
  obtain ⟨h30, h⟩ := items_cons h
  obtain ⟨h31, h⟩ := items_cons h
  obtain ⟨h32, h⟩ := items_cons h
  obtain ⟨h33, h⟩ := items_cons h
  obtain ⟨h34, h⟩ := items_cons h
  obtain ⟨h35, h⟩ := items_cons h
  obtain ⟨h36, h⟩ := items_cons h
  obtain ⟨h37, h⟩ := items_cons h
  cases int_inj h0
  cases int_inj h1
  cases int_inj h2
  cases int_inj h3
  cases int_inj h4
  cases str_inj h5
  cases str_inj h6
  cases int_inj h7
  cases int_inj h8
  cases int_inj h9
  cases int_inj h10
  cases int_inj h11
  cases int_inj h12
  cases int_inj h13
  cases str_inj h14
  cases list_map_inj int_inj h15
  cases list_map_inj int_inj h16
  cases int_inj h17
  cases int_inj h18
  cases int_inj h19
  cases int_inj h20
  cases int_inj h21
  cases float_inj h22
  cases float_inj h23
  cases int_inj h24
  cases int_inj h25
  cases float_inj h26
  cases int_inj h27
  cases int_inj h28
  cases list_map_inj FrameData.asdict_inj h29
  cases int_inj h30
  cases list_map_inj int_inj h31
  cases list_map_inj int_inj h32
  cases list_map_inj int_inj h33
  cases list_map_inj int_inj h34
  cases list_map_inj int_inj h35
  cases int_inj h36
  cases int_inj h37
  rfl

theorem TileSize.asdict_inj {a b : TileSize} (h : a.asdict = b.asdict) : a = b := by
  have h := PyTree.dict.inj h
  cases a; cases b
  dsimp only at h
  obtain ⟨h0, h⟩ := items_cons h
  obtain ⟨h1, h⟩ := items_cons h
  obtain ⟨h2, h⟩ := items_cons h
  cases int_inj h0
  cases int_inj h1
  cases int_inj h2
  rfl

theorem TerrainBlock.asdict_inj {a b : TerrainBlock} (h : a.asdict = b.asdict) : a = b := by
  have h := PyTree.dict.inj h
  cases a; cases b
  dsimp only at h
  obtain ⟨h0, h⟩ := items_cons h
  obtain ⟨h1, h⟩ := items_cons h
  obtain ⟨h2, h⟩ := items_cons h
  obtain ⟨h3, h⟩ := items_cons h
  obtain ⟨h4, h⟩ := items_cons h
  obtain ⟨h5, h⟩ := items_cons h
  obtain ⟨h6, h⟩ := items_cons h
  obtain ⟨h7, h⟩ := items_cons h
  obtain ⟨h8, h⟩ := items_cons h
  obtain ⟨h9, h⟩ := items_cons h
  obtain ⟨h10, h⟩ := items_cons h
  obtain ⟨h11, h⟩ := items_cons h
  obtain ⟨h12, h⟩ := items_cons h
  obtain ⟨h13, h⟩ := items_cons h
  obtain ⟨h14, h⟩ := items_cons h
  obtain ⟨h15, h⟩ := items_cons h
  obtain ⟨h16, h⟩ := items_cons h
  obtain ⟨h17, h⟩ := items_cons h
  obtain ⟨h18, h⟩ := items_cons h
  obtain ⟨h19, h⟩ := items_cons h
  obtain ⟨h20, h⟩ := items_cons h
  obtain ⟨h21, h⟩ := items_cons h
  obtain ⟨h22, h⟩ := items_cons h
  obtain ⟨h23, h⟩ := items_cons h
  obtain ⟨h24, h⟩ := items_cons h
  obtain ⟨h25, h⟩ := items_cons h
  obtain ⟨h26, h⟩ := items_cons h
  obtain ⟨h27, h⟩ := items_cons h
  obtain ⟨h28, h⟩ := items_cons h
  obtain ⟨h29, h⟩ := items_cons h
  obtain ⟨h30, h⟩ := items_cons h
  obtain ⟨h31, h⟩ := items_cons h
  obtain ⟨h32, h⟩ := items_cons h
  obtain ⟨h33, h⟩ := items_cons h
  cases int_inj h0
  cases int_inj h1
  cases int_inj h2
  cases int_inj h3
  cases int_inj h4
  cases int_inj h5
  cases list_map_inj TileSize.asdict_inj h6
  cases int_inj h7
  cases list_map_inj Terrain.asdict_inj h8
  cases float_inj h9
  cases float_inj h10
  cases float_inj h11
  cases float_inj h12
  cases float_inj h13
  cases float_inj h14
  cases int_inj h15
  cases int_inj h16
  cases int_inj h17
  cases int_inj h18
  cases int_inj h19
  cases int_inj h20
  cases int_inj h21
  cases int_inj h22
  cases int_inj h23
  cases int_inj h24
  cases int_inj h25
  cases int_inj h26
  cases int_inj h27
  cases int_inj h28
  cases int_inj h29
  cases int_inj h30
  cases int_inj h31
  cases int_inj h32
  cases int_inj h33
  rfl

theorem MapUnit.asdict_inj {a b : MapUnit} (h : a.asdict = b.asdict) : a = b := by
  have h := PyTree.dict.inj h
  cases a; cases b
  dsimp only at h
  obtain ⟨h0, h⟩ := items_cons h
  obtain ⟨h1, h⟩ := items_cons h
  obtain ⟨h2, h⟩ := items_cons h
  obtain ⟨h3, h⟩ := items_cons h
  obtain ⟨h4, h⟩ := items_cons h
  obtain ⟨h5, h⟩ := items_cons h
  obtain ⟨h6, h⟩ := items_cons h
  obtain ⟨h7, h⟩ := items_cons h
  obtain ⟨h8, h⟩ := items_cons h
  obtain ⟨h9, h⟩ := items_cons h
  obtain ⟨h10, h⟩ := items_cons h
  obtain ⟨h11, h⟩ := items_cons h
  obtain ⟨h12, h⟩ := items_cons h
  cases int_inj h0
  cases int_inj h1
  cases int_inj h2
  cases int_inj h3
  cases int_inj h4
  cases int_inj h5
  cases int_inj h6
  cases int_inj h7
  cases int_inj h8
  cases int_inj h9
  cases int_inj h10
  cases int_inj h11
  cases int_inj h12
  rfl

theorem MapTerrain.asdict_inj {a b : MapTerrain} (h : a.asdict = b.asdict) : a = b := by
  have h := PyTree.dict.inj h
  cases a; cases b
  dsimp only at h
  obtain ⟨h0, h⟩ := items_cons h
  obtain ⟨h1, h⟩ := items_cons h
  obtain ⟨h2, h⟩ := items_cons h
  obtain ⟨h3, h⟩ := items_cons h
  obtain ⟨h4, h⟩ := items_cons h
  obtain ⟨h5, h⟩ := items_cons h
  cases int_inj h0
  cases int_inj h1
  cases int_inj h2
  cases int_inj h3
  cases int_inj h4
  cases int_inj h5
  rfl

theorem MapLand.asdict_inj {a b : MapLand} (h : a.asdict = b.asdict) : a = b := by
  have h := PyTree.dict.inj h
  cases a; cases b
  dsimp only at h
  obtain ⟨h0, h⟩ := items_cons h
  obtain ⟨h1, h⟩ := items_cons h
  obtain ⟨h2, h⟩ := items_cons h
  obtain ⟨h3, h⟩ := items_cons h
  obtain ⟨h4, h⟩ := items_cons h
  obtain ⟨h5, h⟩ := items_cons h
  obtain ⟨h6, h⟩ := items_cons h
  obtain ⟨h7, h⟩ := items_cons h
  obtain ⟨h8, h⟩ := items_cons h
  obtain ⟨h9, h⟩ := items_cons h
  obtain ⟨h10, h⟩ := items_cons h
  obtain ⟨h11, h⟩ := items_cons h
  obtain ⟨h12, h⟩ := items_cons h
  obtain ⟨h13, h⟩ := items_cons h
  obtain ⟨h14, h⟩ := items_cons h
  cases int_inj h0
  cases int_inj h1
  cases int_inj h2
  cases int_inj h3
  cases int_inj h4
  cases int_inj h5
  cases int_inj h6
  cases int_inj h7
  cases int_inj h8
  cases int_inj h9
  cases int_inj h10
  cases int_inj h11
  cases int_inj h12
  cases int_inj h13
  cases int_inj h14
  rfl

theorem MapElevation.asdict_inj {a b : MapElevation} (h : a.asdict = b.asdict) : a = b := by
  have h := PyTree.dict.inj h
  cases a; cases b
  dsimp only at h
  obtain ⟨h0, h⟩ := items_cons h
  obtain ⟨h1, h⟩ := items_cons h
  obtain ⟨h2, h⟩ := items_cons h
  obtain ⟨h3, h⟩ := items_cons h
  obtain ⟨h4, h⟩ := items_cons h
  obtain ⟨h5, h⟩ := items_cons h
  cases int_inj h0
  cases int_inj h1
  cases int_inj h2
  cases int_inj h3
  cases int_inj h4
  cases int_inj h5
  rfl

theorem MapInfo.asdict_inj {a b : MapInfo} (h : a.asdict = b.asdict) : a = b := by
  have h := PyTree.dict.inj h
  cases a; cases b
  dsimp only at h
  obtain ⟨h0, h⟩ := items_cons h
  obtain ⟨h1, h⟩ := items_cons h
  obtain ⟨h2, h⟩ := items_cons h
  obtain ⟨h3, h⟩ := items_cons h
  obtain ⟨h4, h⟩ := items_cons h
  obtain ⟨h5, h⟩ := items_cons h
  obtain ⟨h6, h⟩ := items_cons h
  obtain ⟨h7, h⟩ := items_cons h
  obtain ⟨h8, h⟩ := items_cons h
  obtain ⟨h9, h⟩ := items_cons h
  obtain ⟨h10, h⟩ := items_cons h
  obtain ⟨h11, h⟩ := items_cons h
  obtain ⟨h12, h⟩ := items_cons h
  obtain ⟨h13, h⟩ := items_cons h
  obtain ⟨h14, h⟩ := items_cons h
  obtain ⟨h15, h⟩ := items_cons h
  obtain ⟨h16, h⟩ := items_cons h
  obtain ⟨h17, h⟩ := items_cons h
  obtain ⟨h18, h⟩ := items_cons h
  obtain ⟨h19, h⟩ := items_cons h
  obtain ⟨h20, h⟩ := items_cons h
  obtain ⟨h21, h⟩ := items_cons h
  cases int_inj h0
  cases int_inj h1
  cases int_inj h2
  cases int_inj h3
  cases int_inj h4
  cases int_inj h5
  cases int_inj h6
  cases int_inj h7
  cases int_inj h8
  cases int_inj h9
  cases int_inj h10
  cases int_inj h11
  cases list_map_inj MapLand.asdict_inj h12
  cases int_inj h13
  cases int_inj h14
  cases list_map_inj MapTerrain.asdict_inj h15
  cases int_inj h16
  cases int_inj h17
  cases list_map_inj MapUnit.asdict_inj h18
  cases int_inj h19
  cases int_inj h20
  cases list_map_inj MapElevation.asdict_inj h21
  rfl

theorem RandomMaps.asdict_inj {a b : RandomMaps} (h : a.asdict = b.asdict) : a = b := by
  have h := PyTree.dict.inj h
  cases a; cases b
  dsimp only at h
  obtain ⟨h0, h⟩ := items_cons h
  obtain ⟨h1, h⟩ := items_cons h
  obtain ⟨h2, h⟩ := items_cons h
  cases int_inj h0
  cases list_map_inj MapInfo.asdict_inj h1
  cases list_map_inj MapInfo.asdict_inj h2
  rfl

theorem ResearchResourceCost.asdict_inj {a b : ResearchResourceCost} (h : a.asdict = b.asdict) : a = b := by
  have h := PyTree.dict.inj h
  cases a; cases b
  dsimp only at h
  obtain ⟨h0, h⟩ := items_cons h
  obtain ⟨h1, h⟩ := items_cons h
  obtain ⟨h2, h⟩ := items_cons h
  cases int_inj h0
  cases int_inj h1
  cases int_inj h2
  rfl

theorem ResearchLocation.asdict_inj {a b : ResearchLocation} (h : a.asdict = b.asdict) : a = b := by
  have h := PyTree.dict.inj h
  cases a; cases b
  dsimp only at h
  obtain ⟨h0, h⟩ := items_cons h
  obtain ⟨h1, h⟩ := items_cons h
  obtain ⟨h2, h⟩ := items_cons h
  obtain ⟨h3, h⟩ := items_cons h
  cases int_inj h0
  cases int_inj h1
  cases int_inj h2
  cases int_inj h3
  rfl

theorem Tech.asdict_inj {a b : Tech} (h : a.asdict = b.asdict) : a = b := by
  have h := PyTree.dict.inj h
  cases a; cases b
  dsimp only at h
  obtain ⟨h0, h⟩ := items_cons h
  obtain ⟨h1, h⟩ := items_cons h
  obtain ⟨h2, h⟩ := items_cons h
  obtain ⟨h3, h⟩ := items_cons h
  obtain ⟨h4, h⟩ := items_cons h
  obtain ⟨h5, h⟩ := items_cons h
  obtain ⟨h6, h⟩ := items_cons h
  obtain ⟨h7, h⟩ := items_cons h
  obtain ⟨h8, h⟩ := items_cons h
  obtain ⟨h9, h⟩ := items_cons h
  obtain ⟨h10, h⟩ := items_cons h
  obtain ⟨h11, h⟩ := items_cons h
  obtain ⟨h12, h⟩ := items_cons h
  obtain ⟨h13, h⟩ := items_cons h
  obtain ⟨h14, h⟩ := items_cons h
  cases list_map_inj int_inj h0
  cases list_map_inj ResearchResourceCost.asdict_inj h1
  cases int_inj h2
  cases int_inj h3
  cases int_inj h4
  cases int_inj h5
  cases int_inj h6
  cases int_inj h7
  cases int_inj h8
  cases int_inj h9
  cases int_inj h10
  cases int_inj h11
  cases str_inj h12
  cases int_inj h13
  cases list_map_inj ResearchLocation.asdict_inj h14
  rfl

theorem Common.asdict_inj {a b : Common} (h : a.asdict = b.asdict) : a = b := by
  have h := PyTree.dict.inj h
  cases a; cases b
  dsimp only at h
  obtain ⟨h0, h⟩ := items_cons h
  obtain ⟨h1, h⟩ := items_cons h
  obtain ⟨h2, h⟩ := items_cons h
  cases int_inj h0
  cases list_map_inj int_inj h1
  cases list_map_inj int_inj h2
  rfl

theorem TechTreeAge.asdict_inj {a b : TechTreeAge} (h : a.asdict = b.asdict) : a = b := by
  have h := PyTree.dict.inj h
  cases a; cases b
  dsimp only at h
  obtain ⟨h0, h⟩ := items_cons h
  obtain ⟨h1, h⟩ := items_cons h
  obtain ⟨h2, h⟩ := items_cons h
  obtain ⟨h3, h⟩ := items_cons h
  obtain ⟨h4, h⟩ := items_cons h
  obtain ⟨h5, h⟩ := items_cons h
  obtain ⟨h6, h⟩ := items_cons h
  obtain ⟨h7, h⟩ := items_cons h
  obtain ⟨h8, h⟩ := items_cons h
  obtain ⟨h9, h⟩ := items_cons h
  obtain ⟨h10, h⟩ := items_cons h
  cases int_inj h0
  cases int_inj h1
  cases list_map_inj int_inj h2
  cases list_map_inj int_inj h3
  cases list_map_inj int_inj h4
  cases Common.asdict_inj h5
  cases int_inj h6
  cases list_map_inj int_inj h7
  cases list_map_inj int_inj h8
  cases int_inj h9
  cases int_inj h10
  rfl

theorem BuildingConnection.asdict_inj {a b : BuildingConnection} (h : a.asdict = b.asdict) : a = b := by
  have h := PyTree.dict.inj h
  cases a; cases b
  dsimp only at h
  obtain ⟨h0, h⟩ := items_cons h
  obtain ⟨h1, h⟩ := items_cons h
  obtain ⟨h2, h⟩ := items_cons h
  obtain ⟨h3, h⟩ := items_cons h
  obtain ⟨h4, h⟩ := items_cons h
  obtain ⟨h5, h⟩ := items_cons h
  obtain ⟨h6, h⟩ := items_cons h
  obtain ⟨h7, h⟩ := items_cons h
  obtain ⟨h8, h⟩ := items_cons h
  obtain ⟨h9, h⟩ := items_cons h
  obtain ⟨h10, h⟩ := items_cons h
  cases int_inj h0
  cases int_inj h1
  cases list_map_inj int_inj h2
  cases list_map_inj int_inj h3
  cases list_map_inj int_inj h4
  cases Common.asdict_inj h5
  cases int_inj h6
  cases list_map_inj int_inj h7
  cases list_map_inj int_inj h8
  cases int_inj h9
  cases int_inj h10
  rfl

theorem UnitConnection.asdict_inj {a b : UnitConnection} (h : a.asdict = b.asdict) : a = b := by
  have h := PyTree.dict.inj h
  cases a; cases b
  dsimp only at h
  obtain ⟨h0, h⟩ := items_cons h
  obtain ⟨h1, h⟩ := items_cons h
  obtain ⟨h2, h⟩ := items_cons h
  obtain ⟨h3, h⟩ := items_cons h
  obtain ⟨h4, h⟩ := items_cons h
  obtain ⟨h5, h⟩ := items_cons h
  obtain ⟨h6, h⟩ := items_cons h
  obtain ⟨h7, h⟩ := items_cons h
  obtain ⟨h8, h⟩ := items_cons h
  obtain ⟨h9, h⟩ := items_cons h
  cases int_inj h0
  cases int_inj h1
  cases int_inj h2
  cases Common.asdict_inj h3
  cases int_inj h4
  cases list_map_inj int_inj h5
  cases int_inj h6
  cases int_inj h7
  cases int_inj h8
  cases int_inj h9
  rfl

theorem ResearchConnection.asdict_inj {a b : ResearchConnection} (h : a.asdict = b.asdict) : a = b := by
  have h := PyTree.dict.inj h
  cases a; cases b
  dsimp only at h
  obtain ⟨h0, h⟩ := items_cons h
  obtain ⟨h1, h⟩ := items_cons h
  obtain ⟨h2, h⟩ := items_cons h
  obtain ⟨h3, h⟩ := items_cons h
  obtain ⟨h4, h⟩ := items_cons h
  obtain ⟨h5, h⟩ := items_cons h
  obtain ⟨h6, h⟩ := items_cons h
  obtain ⟨h7, h⟩ := items_cons h
  obtain ⟨h8, h⟩ := items_cons h
  obtain ⟨h9, h⟩ := items_cons h
  cases int_inj h0
  cases int_inj h1
  cases int_inj h2
  cases list_map_inj int_inj h3
  cases list_map_inj int_inj h4
  cases list_map_inj int_inj h5
  cases Common.asdict_inj h6
  cases int_inj h7
  cases int_inj h8
  cases int_inj h9
  rfl

theorem TechTree.asdict_inj {a b : TechTree} (h : a.asdict = b.asdict) : a = b := by
  have h := PyTree.dict.inj h
  cases a; cases b
  dsimp only at h
  obtain ⟨h0, h⟩ := items_cons h
  obtain ⟨h1, h⟩ := items_cons h
  obtain ⟨h2, h⟩ := items_cons h
  obtain ⟨h3, h⟩ := items_cons h
  obtain ⟨h4, h⟩ := items_cons h
  cases int_inj h0
  cases list_map_inj TechTreeAge.asdict_inj h1
  cases list_map_inj BuildingConnection.asdict_inj h2
  cases list_map_inj UnitConnection.asdict_inj h3
  cases list_map_inj ResearchConnection.asdict_inj h4
  rfl

theorem Task.asdict_inj {a b : Task} (h : a.asdict = b.asdict) : a = b := by
  have h := PyTree.dict.inj h
  cases a; cases b
  dsimp only at h
  obtain ⟨h0, h⟩ := items_cons h
  obtain ⟨h1, h⟩ := items_cons h
  obtain ⟨h2, h⟩ := items_cons h
  obtain ⟨h3, h⟩ := items_cons h
  obtain ⟨h4, h⟩ := items_cons h
  obtain ⟨h5, h⟩ := items_cons h
  obtain ⟨h6, h⟩ := items_cons h
  obtain ⟨h7, h⟩ := items_cons h
  obtain ⟨h8, h⟩ := items_cons h
  obtain ⟨h9, h⟩ := items_cons h
  obtain ⟨h10, h⟩ := items_cons h
  obtain ⟨h11, h⟩ := items_cons h
  obtain ⟨h12, h⟩ := items_cons h
  obtain ⟨h13, h⟩ := items_cons h
  obtain ⟨h14, h⟩ := items_cons h
  obtain ⟨h15, h⟩ := items_cons h
  obtain ⟨h16, h⟩ := items_cons h
  obtain ⟨h17, h⟩ := items_cons h
  obtain ⟨h18, h⟩ := items_cons h
  obtain ⟨h19, h⟩ := items_cons h
  obtain ⟨h20, h⟩ := items_cons h
  obtain ⟨h21, h⟩ := items_cons h
  obtain ⟨h22, h⟩ := items_cons h
  obtain ⟨h23, h⟩ := items_cons h
  obtain ⟨h24, h⟩ := items_cons h
  obtain ⟨h25, h⟩ := items_cons h
  obtain ⟨h26, h⟩ := items_cons h
  obtain ⟨h27, h⟩ := items_cons h
  obtain ⟨h28, h⟩ := items_cons h
  obtain ⟨h29, h⟩ := items_cons h
  obtain ⟨h30, h⟩ := items_cons h
  obtain ⟨h31, h⟩ := items_cons h
  cases int_inj h0
  cases int_inj h1
  cases int_inj h2
  cases int_inj h3
  cases int_inj h4
  cases int_inj h5
  cases int_inj h6
  cases int_inj h7
  cases int_inj h8
  cases int_inj h9
  cases int_inj h10
  cases float_inj h11
  cases float_inj h12
  cases float_inj h13
  cases int_inj h14
  cases float_inj h15
  cases int_inj h16
  cases int_inj h17
  cases int_inj h18
  cases int_inj h19
  cases int_inj h20
  cases int_inj h21
  cases int_inj h22
  cases int_inj h23
  cases int_inj h24
  cases int_inj h25
  cases int_inj h26
  cases int_inj h27
  cases int_inj h28
  cases int_inj h29
  cases int_inj h30
  cases int_inj h31
  rfl

theorem ResourceStorage.asdict_inj {a b : ResourceStorage} (h : a.asdict = b.asdict) : a = b := by
  have h := PyTree.dict.inj h
  cases a; cases b
  dsimp only at h
  obtain ⟨h0, h⟩ := items_cons h
  obtain ⟨h1, h⟩ := items_cons h
  obtain ⟨h2, h⟩ := items_cons h
  cases int_inj h0
  cases float_inj h1
  cases int_inj h2
  rfl

theorem DamageGraphic.asdict_inj {a b : DamageGraphic} (h : a.asdict = b.asdict) : a = b := by
  have h := PyTree.dict.inj h
  cases a; cases b
  dsimp only at h
  obtain ⟨h0, h⟩ := items_cons h
  obtain ⟨h1, h⟩ := items_cons h
  obtain ⟨h2, h⟩ := items_cons h
  cases int_inj h0
  cases int_inj h1
  cases int_inj h2
  rfl

theorem DeadFish.asdict_inj {a b : DeadFish} (h : a.asdict = b.asdict) : a = b := by
  have h := PyTree.dict.inj h
  cases a; cases b
  dsimp only at h
  obtain ⟨h0, h⟩ := items_cons h
  obtain ⟨h1, h⟩ := items_cons h
  obtain ⟨h2, h⟩ := items_cons h
  obtain ⟨h3, h⟩ := items_cons h
  obtain ⟨h4, h⟩ := items_cons h
  obtain ⟨h5, h⟩ := items_cons h
  obtain ⟨h6, h⟩ := items_cons h
  obtain ⟨h7, h⟩ := items_cons h
  obtain ⟨h8, h⟩ := items_cons h
  obtain ⟨h9, h⟩ := items_cons h
  obtain ⟨h10, h⟩ := items_cons h
  obtain ⟨h11, h⟩ := items_cons h
  obtain ⟨h12, h⟩ := items_cons h
  obtain ⟨h13, h⟩ := items_cons h
  cases int_inj h0
  cases int_inj h1
  cases float_inj h2
  cases int_inj h3
  cases int_inj h4
  cases int_inj h5
  cases float_inj h6
  cases int_inj h7
  cases float_inj h8
  cases float_inj h9
  cases float_inj h10
  cases float_inj h11
  cases float_inj h12
  cases float_inj h13
  rfl

theorem Bird.asdict_inj {a b : Bird} (h : a.asdict = b.asdict) : a = b := by
  have h := PyTree.dict.inj h
  cases a; cases b
  dsimp only at h
  obtain ⟨h0, h⟩ := items_cons h
  obtain ⟨h1, h⟩ := items_cons h
  obtain ⟨h2, h⟩ := items_cons h
  obtain ⟨h3, h⟩ := items_cons h
  obtain ⟨h4, h⟩ := items_cons h
  obtain ⟨h5, h⟩ := items_cons h
  obtain ⟨h6, h⟩ := items_cons h
  obtain ⟨h7, h⟩ := items_cons h
  obtain ⟨h8, h⟩ := items_cons h
  obtain ⟨h9, h⟩ := items_cons h
  obtain ⟨h10, h⟩ := items_cons h
  cases int_inj h0
  cases float_inj h1
  cases float_inj h2
  cases list_map_inj int_inj h3
  cases int_inj h4
  cases int_inj h5
  cases int_inj h6
  cases int_inj h7
  cases int_inj h8
  cases int_inj h9
  cases list_map_inj Task.asdict_inj h10
  rfl

theorem AttackOrArmor.asdict_inj {a b : AttackOrArmor} (h : a.asdict = b.asdict) : a = b := by
  have h := PyTree.dict.inj h
  cases a; cases b
  dsimp only at h
  obtain ⟨h0, h⟩ := items_cons h
  obtain ⟨h1, h⟩ := items_cons h
  cases int_inj h0
  cases int_inj h1
  rfl

theorem Type50.asdict_inj {a b : Type50} (h : a.asdict = b.asdict) : a = b := by
  have h := PyTree.dict.inj h
  cases a; cases b
  dsimp only at h
  obtain ⟨h0, h⟩ := items_cons h
  obtain ⟨h1, h⟩ := items_cons h
  obtain ⟨h2, h⟩ := items_cons h
  obtain ⟨h3, h⟩ := items_cons h
  obtain ⟨h4, h⟩ := items_cons h
  obtain ⟨h5, h⟩ := items_cons h
  obtain ⟨h6, h⟩ := items_cons h
  obtain ⟨h7, h⟩ := items_cons h
  obtain ⟨h8, h⟩ := items_cons h
  obtain ⟨h9, h⟩ := items_cons h
  obtain ⟨h10, h⟩ := items_cons h
  obtain ⟨h11, h⟩ := items_cons h
  obtain ⟨h12, h⟩ := items_cons h
  obtain ⟨h13, h⟩ := items_cons h
  obtain ⟨h14, h⟩ := items_cons h
  obtain ⟨h15, h⟩ := items_cons h
  obtain ⟨h16, h⟩ := items_cons h
  obtain ⟨h17, h⟩ := items_cons h
  obtain ⟨h18, h⟩ := items_cons h
  obtain ⟨h19, h⟩ := items_cons h
  obtain ⟨h20, h⟩ := items_cons h
  obtain ⟨h21, h⟩ := items_cons h
  obtain ⟨h22, h⟩ := items_cons h
  obtain ⟨h23, h⟩ := items_cons h
  obtain ⟨h24, h⟩ := items_cons h
  obtain ⟨h25, h⟩ := items_cons h
  obtain ⟨h26, h⟩ := items_cons h
  cases int_inj h0
  cases list_map_inj AttackOrArmor.asdict_inj h1
  cases list_map_inj AttackOrArmor.asdict_inj h2
  cases int_inj h3
  cases float_inj h4
  cases float_inj h5
  cases float_inj h6
  cases float_inj h7
  cases int_inj h8
  cases int_inj h9
  cases int_inj h10
  cases int_inj h11
  cases list_map_inj float_inj h12
  cases int_inj h13
  cases float_inj h14
  cases float_inj h15
  cases int_inj h16
  cases int_inj h17
  cases int_inj h18
  cases float_inj h19
  cases float_inj h20
  cases float_inj h21
  cases float_inj h22
  cases float_inj h23
  cases int_inj h24
  cases float_inj h25
  cases int_inj h26
  rfl

theorem Projectile.asdict_inj {a b : Projectile} (h : a.asdict = b.asdict) : a = b := by
  have h := PyTree.dict.inj h
  cases a; cases b
  dsimp only at h
  obtain ⟨h0, h⟩ := items_cons h
  obtain ⟨h1, h⟩ := items_cons h
  obtain ⟨h2, h⟩ := items_cons h
  obtain ⟨h3, h⟩ := items_cons h
  obtain ⟨h4, h⟩ := items_cons h
  obtain ⟨h5, h⟩ := items_cons h
  cases int_inj h0
  cases int_inj h1
  cases int_inj h2
  cases int_inj h3
  cases int_inj h4
  cases float_inj h5
  rfl

theorem ResourceCost.asdict_inj {a b : ResourceCost} (h : a.asdict = b.asdict) : a = b := by
  have h := PyTree.dict.inj h
  cases a; cases b
  dsimp only at h
  obtain ⟨h0, h⟩ := items_cons h
  obtain ⟨h1, h⟩ := items_cons h
  obtain ⟨h2, h⟩ := items_cons h
  cases int_inj h0
  cases int_inj h1
  cases int_inj h2
  rfl

theorem TrainLocation.asdict_inj {a b : TrainLocation} (h : a.asdict = b.asdict) : a = b := by
  have h := PyTree.dict.inj h
  cases a; cases b
  dsimp only at h
  obtain ⟨h0, h⟩ := items_cons h
  obtain ⟨h1, h⟩ := items_cons h
  obtain ⟨h2, h⟩ := items_cons h
  obtain ⟨h3, h⟩ := items_cons h
  cases int_inj h0
  cases int_inj h1
  cases int_inj h2
  cases int_inj h3
  rfl

theorem Creatable.asdict_inj (old : Bool) {a b : Creatable} (h : a.asdict old = b.asdict old) : a = b := by
  have h := PyTree.dict.inj h
  cases a; cases b
  dsimp only at h
  obtain ⟨h0, h⟩ := items_cons h
  obtain ⟨h1, h⟩ := items_cons h
  obtain ⟨h2, h⟩ := items_cons h
  obtain ⟨h3, h⟩ := items_cons h
  obtain ⟨h4, h⟩ := items_cons h
  obtain ⟨h5, h⟩ := items_cons h
  obtain ⟨h6, h⟩ := items_cons h
  obtain ⟨h7, h⟩ := items_cons h
  obtain ⟨h8, h⟩ := items_cons h
  obtain ⟨h9, h⟩ := items_cons h
  obtain ⟨h10, h⟩ := items_cons h
  obtain ⟨h11, h⟩ := items_cons h
  obtain ⟨h12, h⟩ := items_cons h
  obtain ⟨h13, h⟩ := items_cons h
  obtain ⟨h14, h⟩ := items_cons h
  obtain ⟨h15, h⟩ := items_cons h
  obtain ⟨h16, h⟩ := items_cons h
  obtain ⟨h17, h⟩ := items_cons h
  obtain ⟨h18, h⟩ := items_cons h
  obtain ⟨h19, h⟩ := items_cons h
  obtain ⟨h20, h⟩ := items_cons h
  obtain ⟨h21, h⟩ := items_cons h
  obtain ⟨h22, h⟩ := items_cons h
  obtain ⟨h23, h⟩ := items_cons h
  obtain ⟨h24, h⟩ := items_cons h
  obtain ⟨h25, h⟩ := items_cons h
  obtain ⟨h26, h⟩ := items_cons h
  obtain ⟨h27, h⟩ := items_cons h
  obtain ⟨h28, h⟩ := items_cons h
  obtain ⟨h29, h⟩ := items_cons h
  obtain ⟨h30, h⟩ := items_cons h
  obtain ⟨h31, h⟩ := items_cons h
  obtain ⟨h32, h⟩ := items_cons h
  cases list_map_inj ResourceCost.asdict_inj h0
  cases list_map_inj TrainLocation.asdict_inj h1
  cases float_inj h2
  cases float_inj h3
  cases int_inj h4
  cases int_inj h5
  cases int_inj h6
  cases int_inj h7
  cases int_inj h8
  cases int_inj h9
  cases int_inj h10
  cases float_inj h11
  cases float_inj h12
  cases int_inj h13
  cases int_inj h14
  cases int_inj h15
  cases int_inj h16
  cases int_inj h17
  cases invulnerabilityTree_inj old h18
  cases int_inj h19
  cases int_inj h20
  cases int_inj h21
  cases int_inj h22
  cases float_inj h23
  cases float_inj h24
  cases float_inj h25
  cases float_inj h26
  cases int_inj h27
  cases list_map_inj float_inj h28
  cases int_inj h29
  cases int_inj h30
  cases int_inj h31
  cases int_inj h32
  rfl

theorem BuildingAnnex.asdict_inj {a b : BuildingAnnex} (h : a.asdict = b.asdict) : a = b := by
  have h := PyTree.dict.inj h
  cases a; cases b
  dsimp only at h
  obtain ⟨h0, h⟩ := items_cons h
  obtain ⟨h1, h⟩ := items_cons h
  obtain ⟨h2, h⟩ := items_cons h
  cases int_inj h0
  cases float_inj h1
  cases float_inj h2
  rfl

theorem Building.asdict_inj {a b : Building} (h : a.asdict = b.asdict) : a = b := by
  have h := PyTree.dict.inj h
  cases a; cases b
  dsimp only at h
  obtain ⟨h0, h⟩ := items_cons h
  obtain ⟨h1, h⟩ := items_cons h
  obtain ⟨h2, h⟩ := items_cons h
  obtain ⟨h3, h⟩ := items_cons h
  obtain ⟨h4, h⟩ := items_cons h
  obtain ⟨h5, h⟩ := items_cons h
  obtain ⟨h6, h⟩ := items_cons h
  obtain ⟨h7, h⟩ := items_cons h
  obtain ⟨h8, h⟩ := items_cons h
  obtain ⟨h9, h⟩ := items_cons h
  obtain ⟨h10, h⟩ := items_cons h
  obtain ⟨h11, h⟩ := items_cons h
  obtain ⟨h12, h⟩ := items_cons h
  obtain ⟨h13, h⟩ := items_cons h
  obtain ⟨h14, h⟩ := items_cons h
  obtain ⟨h15, h⟩ := items_cons h
  obtain ⟨h16, h⟩ := items_cons h
  obtain ⟨h17, h⟩ := items_cons h
  obtain ⟨h18, h⟩ := items_cons h
  obtain ⟨h19, h⟩ := items_cons h
  obtain ⟨h20, h⟩ := items_cons h
  obtain ⟨h21, h⟩ := items_cons h
  obtain ⟨h22, h⟩ := items_cons h
  obtain ⟨h23, h⟩ := items_cons h
  obtain ⟨h24, h⟩ := items_cons h
  obtain ⟨h25, h⟩ := items_cons h
  cases int_inj h0
  cases int_inj h1
  cases int_inj h2
  cases int_inj h3
  cases int_inj h4
  cases int_inj h5
  cases int_inj h6
  cases int_inj h7
  cases int_inj h8
  cases int_inj h9
  cases int_inj h10
  cases int_inj h11
  cases int_inj h12
  cases int_inj h13
  cases list_map_inj BuildingAnnex.asdict_inj h14
  cases int_inj h15
  cases int_inj h16
  cases int_inj h17
  cases int_inj h18
  cases int_inj h19
  cases int_inj h20
  cases int_inj h21
  cases float_inj h22
  cases float_inj h23
  cases int_inj h24
  cases list_map_inj int_inj h25
  rfl

theorem Unit.asdict_inj (old : Bool) {a b : Unit} (h : a.asdict old = b.asdict old) : a = b := by
  have h := PyTree.dict.inj h
  cases a; cases b
  dsimp only at h
  obtain ⟨h0, h⟩ := items_cons h
  obtain ⟨h1, h⟩ := items_cons h
  obtain ⟨h2, h⟩ := items_cons h
  obtain ⟨h3, h⟩ := items_cons h
  obtain ⟨h4, h⟩ := items_cons h
  obtain ⟨h5, h⟩ := items_cons h
  obtain ⟨h6, h⟩ := items_cons h
  obtain ⟨h7, h⟩ := items_cons h
  obtain ⟨h8, h⟩ := items_cons h
  obtain ⟨h9, h⟩ := items_cons h
  obtain ⟨h10, h⟩ := items_cons h
  obtain ⟨h11, h⟩ := items_cons h
  obtain ⟨h12, h⟩ := items_cons h
  obtain ⟨h13, h⟩ := items_cons h
  obtain ⟨h14, h⟩ := items_cons h
  obtain ⟨h15, h⟩ := items_cons h
  obtain ⟨h16, h⟩ := items_cons h
  obtain ⟨h17, h⟩ := items_cons h
  obtain ⟨h18, h⟩ := items_cons h
  obtain ⟨h19, h⟩ := items_cons h
  obtain ⟨h20, h⟩ := items_cons h
  obtain ⟨h21, h⟩ := items_cons h
  obtain ⟨h22, h⟩ := items_cons h
  obtain ⟨h23, h⟩ := items_cons h
  obtain ⟨h24, h⟩ := items_cons h
  obtain ⟨h25, h⟩ := items_cons h
  obtain ⟨h26, h⟩ := items_cons h
  obtain ⟨h27, h⟩ := items_cons h
  obtain ⟨h28, h⟩ := items_cons h
  obtain ⟨h29, h⟩ := items_cons h
  obtain ⟨h30, h⟩ := items_cons h
  obtain ⟨h31, h⟩ := items_cons h
  obtain ⟨h32, h⟩ := items_cons h
  obtain ⟨h33, h⟩ := items_cons h
  obtain ⟨h34, h⟩ := items_cons h
  obtain ⟨h35, h⟩ := items_cons h
  obtain ⟨h36, h⟩ := items_cons h
  obtain ⟨h37, h⟩ := items_cons h
  obtain ⟨h38, h⟩ := items_cons h
  obtain ⟨h39, h⟩ := items_cons h
  obtain ⟨h40, h⟩ := items_cons h
  obtain ⟨h41, h⟩ := items_cons h
  obtain ⟨h42, h⟩ := items_cons h
  obtain ⟨h43, h⟩ := items_cons h
  obtain ⟨h44, h⟩ := items_cons h
  obtain ⟨h45, h⟩ := items_cons h
  obtain ⟨h46, h⟩ := items_cons h
  obtain ⟨h47, h⟩ := items_cons h
  obtain ⟨h48, h⟩ := items_cons h
  obtain ⟨h49, h⟩ := items_cons h
  obtain ⟨h50, h⟩ := items_cons h
  obtain ⟨h51, h⟩ := items_cons h
  obtain ⟨h52, h⟩ := items_cons h
  obtain ⟨h53, h⟩ := items_cons h
  obtain ⟨h54, h⟩ := items_cons h
  obtain ⟨h55, h⟩ := items_cons h
  obtain ⟨h56, h⟩ := items_cons h
  obtain ⟨h57, h⟩ := items_cons h
  obtain ⟨h58, h⟩ := items_cons h
  obtain ⟨h59, h⟩ := items_cons h
  obtain ⟨h60, h⟩ := items_cons h
  obtain ⟨h61, h⟩ := items_cons h
  obtain ⟨h62, h⟩ := items_cons h
  obtain ⟨h63, h⟩ := items_cons h
  obtain ⟨h64, h⟩ := items_cons h
  obtain ⟨h65, h⟩ := items_cons h
  obtain ⟨h66, h⟩ := items_cons h
  obtain ⟨h67, h⟩ := items_cons h
  obtain ⟨h68, h⟩ := items_cons h
  obtain ⟨h69, h⟩ := items_cons h
  obtain ⟨h70, h⟩ := items_cons h
  obtain ⟨h71, h⟩ := items_cons h
  obtain ⟨h72, h⟩ := items_cons h
  obtain ⟨h73, h⟩ := items_cons h
  obtain ⟨h74, h⟩ := items_cons h
  obtain ⟨h75, h⟩ := items_cons h
  obtain ⟨h76, h⟩ := items_cons h
  obtain ⟨h77, h⟩ := items_cons h
  obtain ⟨h78, h⟩ := items_cons h
  obtain ⟨h79, h⟩ := items_cons h
  obtain ⟨h80, h⟩ := items_cons h
  obtain ⟨h81, h⟩ := items_cons h
  cases int_inj h0
  cases int_inj h1
  cases int_inj h2
  cases int_inj h3
  cases int_inj h4
  cases list_map_inj int_inj h5
  cases int_inj h6
  cases int_inj h7
  cases int_inj h8
  cases int_inj h9
  cases float_inj h10
  cases int_inj h11
  cases float_inj h12
  cases float_inj h13
  cases float_inj h14
  cases int_inj h15
  cases int_inj h16
  cases int_inj h17
  cases int_inj h18
  cases int_inj h19
  cases int_inj h20
  cases int_inj h21
  cases int_inj h22
  cases int_inj h23
  cases int_inj h24
  cases int_inj h25
  cases list_map_inj int_inj h26
  cases list_map_inj int_inj h27
  cases list_map_inj float_inj h28
  cases int_inj h29
  cases int_inj h30
  cases int_inj h31
  cases int_inj h32
  cases int_inj h33
  cases float_inj h34
  cases int_inj h35
  cases int_inj h36
  cases int_inj h37
  cases int_inj h38
  cases int_inj h39
  cases float_inj h40
  cases int_inj h41
  cases int_inj h42
  cases int_inj h43
  cases int_inj h44
  cases int_inj h45
  cases int_inj h46
  cases int_inj h47
  cases int_inj h48
  cases int_inj h49
  cases int_inj h50
  cases int_inj h51
  cases int_inj h52
  cases int_inj h53
  cases int_inj h54
  cases int_inj h55
  cases int_inj h56
  cases float_inj h57
  cases float_inj h58
  cases float_inj h59
  cases int_inj h60
  cases int_inj h61
  cases list_map_inj ResourceStorage.asdict_inj h62
  cases list_map_inj DamageGraphic.asdict_inj h63
  cases int_inj h64
  cases int_inj h65
  cases int_inj h66
  cases int_inj h67
  cases int_inj h68
  cases int_inj h69
  cases int_inj h70
  cases int_inj h71
  cases str_inj h72
  cases int_inj h73
  cases int_inj h74
  cases optTree_inj float_inj (fun _ h => by cases h) h75
  cases optTree_inj DeadFish.asdict_inj (fun _ h => by cases h) h76
  cases optTree_inj Bird.asdict_inj (fun _ h => by cases h) h77
  cases optTree_inj Type50.asdict_inj (fun _ h => by cases h) h78
  cases optTree_inj Projectile.asdict_inj (fun _ h => by cases h) h79
  cases optTree_inj (Creatable.asdict_inj old) (fun _ h => by cases h) h80
  cases optTree_inj Building.asdict_inj (fun _ h => by cases h) h81
  rfl

theorem UnitHeaders.asdict_inj {a b : UnitHeaders} (h : a.asdict = b.asdict) : a = b := by
  have h := PyTree.dict.inj h
  cases a; cases b
  dsimp only at h
  obtain ⟨h0, h⟩ := items_cons h
  obtain ⟨h1, h⟩ := items_cons h
  cases int_inj h0
  cases optTree_inj (list_map_inj Task.asdict_inj) (fun _ h => by cases h) h1
  rfl

theorem Civ.asdict_inj (old : Bool) {a b : Civ} (h : a.asdict old = b.asdict old) : a = b := by
  have h := PyTree.dict.inj h
  cases a; cases b
  dsimp only at h
  obtain ⟨h0, h⟩ := items_cons h
  obtain ⟨h1, h⟩ := items_cons h
  obtain ⟨h2, h⟩ := items_cons h
  obtain ⟨h3, h⟩ := items_cons h
  obtain ⟨h4, h⟩ := items_cons h
  obtain ⟨h5, h⟩ := items_cons h
  obtain ⟨h6, h⟩ := items_cons h
  cases int_inj h0
  cases str_inj h1
  cases int_inj h2
  cases int_inj h3
  cases list_map_inj float_inj h4
  cases int_inj h5
  cases list_map_inj (optTree_inj (Unit.asdict_inj old) (fun _ h => by cases h)) h6
  rfl

theorem DatFile.asdict_inj (old : Bool) {a b : DatFile} (h : a.asdict old = b.asdict old) : a = b := by
  have h := PyTree.dict.inj h
  cases a; cases b
  dsimp only at h
  obtain ⟨h0, h⟩ := items_cons h
  obtain ⟨h1, h⟩ := items_cons h
  obtain ⟨h2, h⟩ := items_cons h
  obtain ⟨h3, h⟩ := items_cons h
  obtain ⟨h4, h⟩ := items_cons h
  obtain ⟨h5, h⟩ := items_cons h
  obtain ⟨h6, h⟩ := items_cons h
  obtain ⟨h7, h⟩ := items_cons h
  obtain ⟨h8, h⟩ := items_cons h
  obtain ⟨h9, h⟩ := items_cons h
  obtain ⟨h10, h⟩ := items_cons h
  obtain ⟨h11, h⟩ := items_cons h
  obtain ⟨h12, h⟩ := items_cons h
  obtain ⟨h13, h⟩ := items_cons h
  obtain ⟨h14, h⟩ := items_cons h
  obtain ⟨h15, h⟩ := items_cons h
  obtain ⟨h16, h⟩ := items_cons h
  obtain ⟨h17, h⟩ := items_cons h
  obtain ⟨h18, h⟩ := items_cons h
  obtain ⟨h19, h⟩ := items_cons h
  obtain ⟨h20, h⟩ := items_cons h
  cases str_inj h0
  cases list_map_inj int_inj h1
  cases list_map_inj int_inj h2
  cases list_map_inj TerrainRestriction.asdict_inj h3
  cases list_map_inj PlayerColour.asdict_inj h4
  cases list_map_inj Sound.asdict_inj h5
  cases list_map_inj (optTree_inj Graphic.asdict_inj (fun _ h => by cases h)) h6
  cases TerrainBlock.asdict_inj h7
  cases RandomMaps.asdict_inj h8
  cases list_map_inj Effect.asdict_inj h9
  cases list_map_inj UnitHeaders.asdict_inj h10
  cases list_map_inj (Civ.asdict_inj old) h11
  cases list_map_inj Tech.asdict_inj h12
  cases int_inj h13
  cases int_inj h14
  cases int_inj h15
  cases int_inj h16
  cases int_inj h17
  cases int_inj h18
  cases int_inj h19
  cases TechTree.asdict_inj h20
  rfl

namespace RecordClass

/-- `dataclasses.asdict`, for every record class. -/
def asdict (old : Bool) : (c : RecordClass) → c.Obj → PyTree
  | .EffectCommand => Genie.EffectCommand.asdict
  | .Effect => Genie.Effect.asdict
  | .SoundItem => Genie.SoundItem.asdict
  | .Sound => Genie.Sound.asdict
  | .PlayerColour => Genie.PlayerColour.asdict
  | .GraphicDelta => Genie.GraphicDelta.asdict
  | .GraphicAngleSound => Genie.GraphicAngleSound.asdict
  | .Graphic => Genie.Graphic.asdict
  | .TerrainPassGraphic => Genie.TerrainPassGraphic.asdict
  | .FrameData => Genie.FrameData.asdict
  | .Terrain => Genie.Terrain.asdict
  | .TileSize => Genie.TileSize.asdict
  | .TerrainBlock => Genie.TerrainBlock.asdict
  | .MapUnit => Genie.MapUnit.asdict
  | .MapTerrain => Genie.MapTerrain.asdict
  | .MapLand => Genie.MapLand.asdict
  | .MapElevation => Genie.MapElevation.asdict
  | .MapInfo => Genie.MapInfo.asdict
  | .RandomMaps => Genie.RandomMaps.asdict
  | .ResearchResourceCost => Genie.ResearchResourceCost.asdict
  | .ResearchLocation => Genie.ResearchLocation.asdict
  | .Tech => Genie.Tech.asdict
  | .Common => Genie.Common.asdict
  | .TechTreeAge => Genie.TechTreeAge.asdict
  | .BuildingConnection => Genie.BuildingConnection.asdict
  | .UnitConnection => Genie.UnitConnection.asdict
  | .ResearchConnection => Genie.ResearchConnection.asdict
  | .TechTree => Genie.TechTree.asdict
  | .ResourceStorage => Genie.ResourceStorage.asdict
  | .DamageGraphic => Genie.DamageGraphic.asdict
  | .DeadFish => Genie.DeadFish.asdict
  | .Task => Genie.Task.asdict
  | .Bird => Genie.Bird.asdict
  | .AttackOrArmor => Genie.AttackOrArmor.asdict
  | .Type50 => Genie.Type50.asdict
  | .Projectile => Genie.Projectile.asdict
  | .ResourceCost => Genie.ResourceCost.asdict
  | .TrainLocation => Genie.TrainLocation.asdict
  | .Creatable => Genie.Creatable.asdict old
  | .BuildingAnnex => Genie.BuildingAnnex.asdict
  | .Building => Genie.Building.asdict
  | .Unit => Genie.Unit.asdict old
  | .UnitHeaders => Genie.UnitHeaders.asdict
  | .Civ => Genie.Civ.asdict old
  | .TerrainRestriction _ => Genie.TerrainRestriction.asdict

theorem asdict_inj (old : Bool) (c : RecordClass) {x y : c.Obj} (h : c.asdict old x = c.asdict old y) : x = y := by
  cases c with
  | EffectCommand => exact Genie.EffectCommand.asdict_inj h
  | Effect => exact Genie.Effect.asdict_inj h
  | SoundItem => exact Genie.SoundItem.asdict_inj h
  | Sound => exact Genie.Sound.asdict_inj h
  | PlayerColour => exact Genie.PlayerColour.asdict_inj h
  | GraphicDelta => exact Genie.GraphicDelta.asdict_inj h
  | GraphicAngleSound => exact Genie.GraphicAngleSound.asdict_inj h
  | Graphic => exact Genie.Graphic.asdict_inj h
  | TerrainPassGraphic => exact Genie.TerrainPassGraphic.asdict_inj h
  | FrameData => exact Genie.FrameData.asdict_inj h
  | Terrain => exact Genie.Terrain.asdict_inj h
  | TileSize => exact Genie.TileSize.asdict_inj h
  | TerrainBlock => exact Genie.TerrainBlock.asdict_inj h
  | MapUnit => exact Genie.MapUnit.asdict_inj h
  | MapTerrain => exact Genie.MapTerrain.asdict_inj h
  | MapLand => exact Genie.MapLand.asdict_inj h
  | MapElevation => exact Genie.MapElevation.asdict_inj h
  | MapInfo => exact Genie.MapInfo.asdict_inj h
  | RandomMaps => exact Genie.RandomMaps.asdict_inj h
  | ResearchResourceCost => exact Genie.ResearchResourceCost.asdict_inj h
  | ResearchLocation => exact Genie.ResearchLocation.asdict_inj h
  | Tech => exact Genie.Tech.asdict_inj h
  | Common => exact Genie.Common.asdict_inj h
  | TechTreeAge => exact Genie.TechTreeAge.asdict_inj h
  | BuildingConnection => exact Genie.BuildingConnection.asdict_inj h
  | UnitConnection => exact Genie.UnitConnection.asdict_inj h
  | ResearchConnection => exact Genie.ResearchConnection.asdict_inj h
  | TechTree => exact Genie.TechTree.asdict_inj h
  | ResourceStorage => exact Genie.ResourceStorage.asdict_inj h
  | DamageGraphic => exact Genie.DamageGraphic.asdict_inj h
  | DeadFish => exact Genie.DeadFish.asdict_inj h
  | Task => exact Genie.Task.asdict_inj h
  | Bird => exact Genie.Bird.asdict_inj h
  | AttackOrArmor => exact Genie.AttackOrArmor.asdict_inj h
  | Type50 => exact Genie.Type50.asdict_inj h
  | Projectile => exact Genie.Projectile.asdict_inj h
  | ResourceCost => exact Genie.ResourceCost.asdict_inj h
  | TrainLocation => exact Genie.TrainLocation.asdict_inj h
  | Creatable => exact Genie.Creatable.asdict_inj old h
  | BuildingAnnex => exact Genie.BuildingAnnex.asdict_inj h
  | Building => exact Genie.Building.asdict_inj h
  | Unit => exact Genie.Unit.asdict_inj old h
  | UnitHeaders => exact Genie.UnitHeaders.asdict_inj h
  | Civ => exact Genie.Civ.asdict_inj old h
  | TerrainRestriction n => exact Genie.TerrainRestriction.asdict_inj h

end RecordClass
end Genie
