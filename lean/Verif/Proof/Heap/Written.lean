import Verif.Proof.Heap.Shows
import Verif.Spec.Sized
/-! # The heap writers write what the value writers write (generated by `tools/gen_heapwrite.py`) -/

set_option linter.unusedVariables false
set_option maxRecDepth 20000

namespace Genie
open W

theorem EffectCommand.distinct (x : EffectCommand) : ((EffectCommand.object x).attrsOf.map fun p => PyStr.hash p.1).Nodup := by
  have e : ([lit "type", lit "a", lit "b", lit "c", lit "d"] : List PyStr).map PyStr.hash = [2324369257, 1014, 1015, 1016, 1017] := by
    decide +kernel
  have e' : ((EffectCommand.object x).attrsOf.map fun p => PyStr.hash p.1) = [2324369257, 1014, 1015, 1016, 1017] := e
  rw [e']
  decide +kernel

theorem EffectCommand.write_eq {H : Heap} {n : Nat} {ver : Version} (hn : 0 ≤ n) (x : EffectCommand) {v : HVal} (h : Shows H v (EffectCommand.object x)) :
    EffectCommand.write H (W.toBytes H n) v ver = EffectCommand.toBytes ver x := by
  unfold EffectCommand.write EffectCommand.toBytes
  exact congrArg joinB (
    parts_cons (W.int8_eq (h.at (EffectCommand.distinct x) 0 rfl)) <|
    parts_cons (W.int16_eq (h.at (EffectCommand.distinct x) 1 rfl)) <|
    parts_cons (W.int16_eq (h.at (EffectCommand.distinct x) 2 rfl)) <|
    parts_cons (W.int16_eq (h.at (EffectCommand.distinct x) 3 rfl)) <|
    parts_cons (W.float_eq (h.at (EffectCommand.distinct x) 4 rfl)) <| rfl)

theorem EffectCommand.written {H : Heap} {n : Nat} {ver : Version} (hn : 1 ≤ n) (x : EffectCommand) (v : HVal) (h : Shows H v (EffectCommand.object x)) :
    W.toBytes H n v ver = EffectCommand.toBytes ver x := by
  obtain ⟨m, rfl⟩ : ∃ m, n = m + 1 := ⟨n - 1, by omega⟩
  rw [Shows.dispatch (m := EffectCommand.write) h (by rfl)]
  exact EffectCommand.write_eq (by omega) x h

theorem Effect.distinct (x : Effect) : ((Effect.object x).attrsOf.map fun p => PyStr.hash p.1).Nodup := by
  have e : ([lit "name", lit "effect_commands"] : List PyStr).map PyStr.hash = [2310468454, 446560717635868976426579451145923] := by
    decide +kernel
  have e' : ((Effect.object x).attrsOf.map fun p => PyStr.hash p.1) = [2310468454, 446560717635868976426579451145923] := e
  rw [e']
  decide +kernel

theorem Effect.write_eq {H : Heap} {n : Nat} {ver : Version} (hn : 1 ≤ n) (x : Effect) {v : HVal} (h : Shows H v (Effect.object x)) :
    Effect.write H (W.toBytes H n) v ver = Effect.toBytes ver x := by
  unfold Effect.write Effect.toBytes
  exact congrArg joinB (
    parts_cons (W.debugString_eq (h.at (Effect.distinct x) 0 rfl)) <|
    parts_cons (W.int16_eq (h.at (Effect.distinct x) 1 rfl).list.nat) <|
    parts_cons (W.classArray_eq (f := EffectCommand.object) (h.at (Effect.distinct x) 1 rfl).list (by intro _ e; cases e) (fun _ m _ s => EffectCommand.written (by omega) _ _ s)) <| rfl)

theorem Effect.written {H : Heap} {n : Nat} {ver : Version} (hn : 2 ≤ n) (x : Effect) (v : HVal) (h : Shows H v (Effect.object x)) :
    W.toBytes H n v ver = Effect.toBytes ver x := by
  obtain ⟨m, rfl⟩ : ∃ m, n = m + 1 := ⟨n - 1, by omega⟩
  rw [Shows.dispatch (m := Effect.write) h (by rfl)]
  exact Effect.write_eq (by omega) x h

theorem SoundItem.distinct (x : SoundItem) : ((SoundItem.object x).attrsOf.map fun p => PyStr.hash p.1).Nodup := by
  have e : ([lit "filename", lit "resource_id", lit "probability", lit "civilization", lit "icon_set"] : List PyStr).map PyStr.hash = [675176669175419250, 1535674284785479873133849, 1532844876649202646012362, 198254657525867744092385648, 677132651917810739] := by
    decide +kernel
  have e' : ((SoundItem.object x).attrsOf.map fun p => PyStr.hash p.1) = [675176669175419250, 1535674284785479873133849, 1532844876649202646012362, 198254657525867744092385648, 677132651917810739] := e
  rw [e']
  decide +kernel

theorem SoundItem.write_eq {H : Heap} {n : Nat} {ver : Version} (hn : 0 ≤ n) (x : SoundItem) {v : HVal} (h : Shows H v (SoundItem.object x)) :
    SoundItem.write H (W.toBytes H n) v ver = SoundItem.toBytes ver x := by
  unfold SoundItem.write SoundItem.toBytes
  exact congrArg joinB (
    parts_cons (W.debugString_eq (h.at (SoundItem.distinct x) 0 rfl)) <|
    parts_cons (W.int32_eq (h.at (SoundItem.distinct x) 1 rfl)) <|
    parts_cons (W.int16_eq (h.at (SoundItem.distinct x) 2 rfl)) <|
    parts_cons (W.int16_eq (h.at (SoundItem.distinct x) 3 rfl)) <|
    parts_cons (W.int16_eq (h.at (SoundItem.distinct x) 4 rfl)) <| rfl)

theorem SoundItem.written {H : Heap} {n : Nat} {ver : Version} (hn : 1 ≤ n) (x : SoundItem) (v : HVal) (h : Shows H v (SoundItem.object x)) :
    W.toBytes H n v ver = SoundItem.toBytes ver x := by
  obtain ⟨m, rfl⟩ : ∃ m, n = m + 1 := ⟨n - 1, by omega⟩
  rw [Shows.dispatch (m := SoundItem.write) h (by rfl)]
  exact SoundItem.write_eq (by omega) x h

theorem Sound.distinct (x : Sound) : ((Sound.object x).attrsOf.map fun p => PyStr.hash p.1).Nodup := by
  have e : ([lit "id", lit "play_delay", lit "cache_time", lit "total_probability", lit "items"] : List PyStr).map PyStr.hash = [133982, 11700576394685770223607, 11551922064378651985113, 7776783309107531763321499809614029875, 301241445473] := by
    decide +kernel
  have e' : ((Sound.object x).attrsOf.map fun p => PyStr.hash p.1) = [133982, 11700576394685770223607, 11551922064378651985113, 7776783309107531763321499809614029875, 301241445473] := e
  rw [e']
  decide +kernel

theorem Sound.write_eq {H : Heap} {n : Nat} {ver : Version} (hn : 1 ≤ n) (x : Sound) {v : HVal} (h : Shows H v (Sound.object x)) :
    Sound.write H (W.toBytes H n) v ver = Sound.toBytes ver x := by
  unfold Sound.write Sound.toBytes
  exact congrArg joinB (
    parts_cons (W.int16_eq (h.at (Sound.distinct x) 0 rfl)) <|
    parts_cons (W.int16_eq (h.at (Sound.distinct x) 1 rfl)) <|
    parts_cons (W.int16_eq (h.at (Sound.distinct x) 4 rfl).list.nat) <|
    parts_cons (W.int32_eq (h.at (Sound.distinct x) 2 rfl)) <|
    parts_cons (W.int16_eq (h.at (Sound.distinct x) 3 rfl)) <|
    parts_cons (W.classArray_eq (f := SoundItem.object) (h.at (Sound.distinct x) 4 rfl).list (by intro _ e; cases e) (fun _ m _ s => SoundItem.written (by omega) _ _ s)) <| rfl)

theorem Sound.written {H : Heap} {n : Nat} {ver : Version} (hn : 2 ≤ n) (x : Sound) (v : HVal) (h : Shows H v (Sound.object x)) :
    W.toBytes H n v ver = Sound.toBytes ver x := by
  obtain ⟨m, rfl⟩ : ∃ m, n = m + 1 := ⟨n - 1, by omega⟩
  rw [Shows.dispatch (m := Sound.write) h (by rfl)]
  exact Sound.write_eq (by omega) x h

theorem PlayerColour.distinct (x : PlayerColour) : ((PlayerColour.object x).attrsOf.map fun p => PyStr.hash p.1).Nodup := by
  have e : ([lit "id", lit "player_color_base", lit "unit_outline_color", lit "unit_selection_color_1", lit "unit_selection_color_2", lit "minimap_color", lit "minimap_color_2", lit "minimap_color_3", lit "statistics_text"] : List PyStr).map PyStr.hash = [133982, 7746514285772372308884904387760118564, 1019735866814315417040822719722728373566, 300312132217711578236975491041398202868279187118, 300312132217711578236975491041398202868279187119, 26226768609653246343614091382, 450077576110259360502761422218997, 450077576110259360502761422218998, 452744013771534930428442661423354] := by
    decide +kernel
  have e' : ((PlayerColour.object x).attrsOf.map fun p => PyStr.hash p.1) = [133982, 7746514285772372308884904387760118564, 1019735866814315417040822719722728373566, 300312132217711578236975491041398202868279187118, 300312132217711578236975491041398202868279187119, 26226768609653246343614091382, 450077576110259360502761422218997, 450077576110259360502761422218998, 452744013771534930428442661423354] := e
  rw [e']
  decide +kernel

theorem PlayerColour.write_eq {H : Heap} {n : Nat} {ver : Version} (hn : 0 ≤ n) (x : PlayerColour) {v : HVal} (h : Shows H v (PlayerColour.object x)) :
    PlayerColour.write H (W.toBytes H n) v ver = PlayerColour.toBytes ver x := by
  unfold PlayerColour.write PlayerColour.toBytes
  exact congrArg joinB (
    parts_cons (W.int32_eq (h.at (PlayerColour.distinct x) 0 rfl)) <|
    parts_cons (W.int32_eq (h.at (PlayerColour.distinct x) 1 rfl)) <|
    parts_cons (W.int32_eq (h.at (PlayerColour.distinct x) 2 rfl)) <|
    parts_cons (W.int32_eq (h.at (PlayerColour.distinct x) 3 rfl)) <|
    parts_cons (W.int32_eq (h.at (PlayerColour.distinct x) 4 rfl)) <|
    parts_cons (W.int32_eq (h.at (PlayerColour.distinct x) 5 rfl)) <|
    parts_cons (W.int32_eq (h.at (PlayerColour.distinct x) 6 rfl)) <|
    parts_cons (W.int32_eq (h.at (PlayerColour.distinct x) 7 rfl)) <|
    parts_cons (W.int32_eq (h.at (PlayerColour.distinct x) 8 rfl)) <| rfl)

theorem PlayerColour.written {H : Heap} {n : Nat} {ver : Version} (hn : 1 ≤ n) (x : PlayerColour) (v : HVal) (h : Shows H v (PlayerColour.object x)) :
    W.toBytes H n v ver = PlayerColour.toBytes ver x := by
  obtain ⟨m, rfl⟩ : ∃ m, n = m + 1 := ⟨n - 1, by omega⟩
  rw [Shows.dispatch (m := PlayerColour.write) h (by rfl)]
  exact PlayerColour.write_eq (by omega) x h

theorem GraphicDelta.distinct (x : GraphicDelta) : ((GraphicDelta.object x).attrsOf.map fun p => PyStr.hash p.1).Nodup := by
  have e : ([lit "graphic_id", lit "padding_1", lit "sprite_ptr", lit "offset_x", lit "offset_y", lit "display_angle", lit "padding_2"] : List PyStr).map PyStr.hash = [11598841820880090792601, 89310108724366755648, 11735019460475378071747, 681119843659246119, 681119843659246120, 25996897788353840488624218879, 89310108724366755649] := by
    decide +kernel
  have e' : ((GraphicDelta.object x).attrsOf.map fun p => PyStr.hash p.1) = [11598841820880090792601, 89310108724366755648, 11735019460475378071747, 681119843659246119, 681119843659246120, 25996897788353840488624218879, 89310108724366755649] := e
  rw [e']
  decide +kernel

theorem GraphicDelta.write_eq {H : Heap} {n : Nat} {ver : Version} (hn : 0 ≤ n) (x : GraphicDelta) {v : HVal} (h : Shows H v (GraphicDelta.object x)) :
    GraphicDelta.write H (W.toBytes H n) v ver = GraphicDelta.toBytes ver x := by
  unfold GraphicDelta.write GraphicDelta.toBytes
  exact congrArg joinB (
    parts_cons (W.int16_eq (h.at (GraphicDelta.distinct x) 0 rfl)) <|
    parts_cons (W.int16_eq (h.at (GraphicDelta.distinct x) 1 rfl)) <|
    parts_cons (W.int32_eq (h.at (GraphicDelta.distinct x) 2 rfl)) <|
    parts_cons (W.int16_eq (h.at (GraphicDelta.distinct x) 3 rfl)) <|
    parts_cons (W.int16_eq (h.at (GraphicDelta.distinct x) 4 rfl)) <|
    parts_cons (W.int16_eq (h.at (GraphicDelta.distinct x) 5 rfl)) <|
    parts_cons (W.int16_eq (h.at (GraphicDelta.distinct x) 6 rfl)) <| rfl)

theorem GraphicDelta.written {H : Heap} {n : Nat} {ver : Version} (hn : 1 ≤ n) (x : GraphicDelta) (v : HVal) (h : Shows H v (GraphicDelta.object x)) :
    W.toBytes H n v ver = GraphicDelta.toBytes ver x := by
  obtain ⟨m, rfl⟩ : ∃ m, n = m + 1 := ⟨n - 1, by omega⟩
  rw [Shows.dispatch (m := GraphicDelta.write) h (by rfl)]
  exact GraphicDelta.write_eq (by omega) x h

theorem GraphicAngleSound.distinct (x : GraphicAngleSound) : ((GraphicAngleSound.object x).attrsOf.map fun p => PyStr.hash p.1).Nodup := by
  have e : ([lit "frame_num", lit "sound_id", lit "wwise_sound_id", lit "frame_num_2", lit "sound_id_2", lit "wwise_sound_id_2", lit "frame_num_3", lit "sound_id_3", lit "wwise_sound_id_3"] : List PyStr).map PyStr.hash = [88454046938513383061, 683814156582385870, 3469523386174927221657259037054, 1517959899511828166722316, 11734934741110323927565, 59540490830147926050860222334896189, 1517959899511828166722317, 11734934741110323927566, 59540490830147926050860222334896190] := by
    decide +kernel
  have e' : ((GraphicAngleSound.object x).attrsOf.map fun p => PyStr.hash p.1) = [88454046938513383061, 683814156582385870, 3469523386174927221657259037054, 1517959899511828166722316, 11734934741110323927565, 59540490830147926050860222334896189, 1517959899511828166722317, 11734934741110323927566, 59540490830147926050860222334896190] := e
  rw [e']
  decide +kernel

theorem GraphicAngleSound.write_eq {H : Heap} {n : Nat} {ver : Version} (hn : 0 ≤ n) (x : GraphicAngleSound) {v : HVal} (h : Shows H v (GraphicAngleSound.object x)) :
    GraphicAngleSound.write H (W.toBytes H n) v ver = GraphicAngleSound.toBytes ver x := by
  unfold GraphicAngleSound.write GraphicAngleSound.toBytes
  exact congrArg joinB (
    parts_cons (W.int16_eq (h.at (GraphicAngleSound.distinct x) 0 rfl)) <|
    parts_cons (W.int16_eq (h.at (GraphicAngleSound.distinct x) 1 rfl)) <|
    parts_cons (W.int32_eq (h.at (GraphicAngleSound.distinct x) 2 rfl)) <|
    parts_cons (W.int16_eq (h.at (GraphicAngleSound.distinct x) 3 rfl)) <|
    parts_cons (W.int16_eq (h.at (GraphicAngleSound.distinct x) 4 rfl)) <|
    parts_cons (W.int32_eq (h.at (GraphicAngleSound.distinct x) 5 rfl)) <|
    parts_cons (W.int16_eq (h.at (GraphicAngleSound.distinct x) 6 rfl)) <|
    parts_cons (W.int16_eq (h.at (GraphicAngleSound.distinct x) 7 rfl)) <|
    parts_cons (W.int32_eq (h.at (GraphicAngleSound.distinct x) 8 rfl)) <| rfl)

theorem GraphicAngleSound.written {H : Heap} {n : Nat} {ver : Version} (hn : 1 ≤ n) (x : GraphicAngleSound) (v : HVal) (h : Shows H v (GraphicAngleSound.object x)) :
    W.toBytes H n v ver = GraphicAngleSound.toBytes ver x := by
  obtain ⟨m, rfl⟩ : ∃ m, n = m + 1 := ⟨n - 1, by omega⟩
  rw [Shows.dispatch (m := GraphicAngleSound.write) h (by rfl)]
  exact GraphicAngleSound.write_eq (by omega) x h

theorem Graphic.distinct (x : Graphic) : ((Graphic.object x).attrsOf.map fun p => PyStr.hash p.1).Nodup := by
  have e : ([lit "name", lit "file_name", lit "particle_effect_name", lit "slp", lit "is_loaded", lit "old_color_flag", lit "layer", lit "player_color", lit "transparent_selection", lit "coordinates", lit "sound_id", lit "wwise_sound_id", lit "angle_sounds_used", lit "frame_count", lit "angle_count", lit "speed_multiplier", lit "frame_duration", lit "replay_delay", lit "sequence_type", lit "id", lit "mirroring_mode", lit "editor_flag", lit "deltas", lit "angle_sounds"] : List PyStr).map PyStr.hash = [2310468454, 88448143657591443335, 17413465801947029608268819273293877758094727, 17724412, 88714889468085846059, 3442473363183034784710045859179, 302082573678, 200793591513245399226572168, 2290310361658578557886413219730084804743317300, 1513461901005163511467016, 683814156582385870, 3469523386174927221657259037054, 7633799790977283748001259679801908597, 1517959899511824913873958, 1510473087495707266231304, 59307725496302447804244616390433636, 3412511988453438674722355729305, 201173296948531260009137762, 26379245529299121324213092529, 133982, 3435707481193721022252633036978, 1516313157824268189039279, 39265330264414, 197871974461938269148133259] := by
    decide +kernel
  have e' : ((Graphic.object x).attrsOf.map fun p => PyStr.hash p.1) = [2310468454, 88448143657591443335, 17413465801947029608268819273293877758094727, 17724412, 88714889468085846059, 3442473363183034784710045859179, 302082573678, 200793591513245399226572168, 2290310361658578557886413219730084804743317300, 1513461901005163511467016, 683814156582385870, 3469523386174927221657259037054, 7633799790977283748001259679801908597, 1517959899511824913873958, 1510473087495707266231304, 59307725496302447804244616390433636, 3412511988453438674722355729305, 201173296948531260009137762, 26379245529299121324213092529, 133982, 3435707481193721022252633036978, 1516313157824268189039279, 39265330264414, 197871974461938269148133259] := e
  rw [e']
  decide +kernel

theorem Graphic.write_eq {H : Heap} {n : Nat} {ver : Version} (hn : 1 ≤ n) (x : Graphic) {v : HVal} (h : Shows H v (Graphic.object x)) :
    Graphic.write H (W.toBytes H n) v ver = Graphic.toBytes ver x := by
  unfold Graphic.write Graphic.toBytes
  exact congrArg joinB (
    parts_cons (W.debugString_eq (h.at (Graphic.distinct x) 0 rfl)) <|
    parts_cons (W.debugString_eq (h.at (Graphic.distinct x) 1 rfl)) <|
    parts_cons (W.debugString_eq (h.at (Graphic.distinct x) 2 rfl)) <|
    parts_cons (W.int32_eq (h.at (Graphic.distinct x) 3 rfl)) <|
    parts_cons (W.int8_eq (h.at (Graphic.distinct x) 4 rfl)) <|
    parts_cons (W.int8_eq (h.at (Graphic.distinct x) 5 rfl)) <|
    parts_cons (W.int8_eq (h.at (Graphic.distinct x) 6 rfl)) <|
    parts_cons (W.int16_eq (h.at (Graphic.distinct x) 7 rfl)) <|
    parts_cons (W.int8_eq (h.at (Graphic.distinct x) 8 rfl)) <|
    parts_cons (W.int16Array_eq (h.at (Graphic.distinct x) 9 rfl).tuple) <|
    parts_cons (W.int16_eq (h.at (Graphic.distinct x) 22 rfl).list.nat) <|
    parts_cons (W.int16_eq (h.at (Graphic.distinct x) 10 rfl)) <|
    parts_cons (W.int32_eq (h.at (Graphic.distinct x) 11 rfl)) <|
    parts_cons (W.int8_eq (h.at (Graphic.distinct x) 12 rfl)) <|
    parts_cons (W.int16_eq (h.at (Graphic.distinct x) 13 rfl)) <|
    parts_cons (W.int16_eq (h.at (Graphic.distinct x) 14 rfl)) <|
    parts_cons (W.float_eq (h.at (Graphic.distinct x) 15 rfl)) <|
    parts_cons (W.float_eq (h.at (Graphic.distinct x) 16 rfl)) <|
    parts_cons (W.float_eq (h.at (Graphic.distinct x) 17 rfl)) <|
    parts_cons (W.int8_eq (h.at (Graphic.distinct x) 18 rfl)) <|
    parts_cons (W.int16_eq (h.at (Graphic.distinct x) 19 rfl)) <|
    parts_cons (W.int8_eq (h.at (Graphic.distinct x) 20 rfl)) <|
    parts_cons (W.int8_eq (h.at (Graphic.distinct x) 21 rfl)) <|
    parts_cons (W.classArray_eq (f := GraphicDelta.object) (h.at (Graphic.distinct x) 22 rfl).list (by intro _ e; cases e) (fun _ m _ s => GraphicDelta.written (by omega) _ _ s)) <|
    parts_cons (W.classArray_eq (f := GraphicAngleSound.object) (h.at (Graphic.distinct x) 23 rfl).list (by intro _ e; cases e) (fun _ m _ s => GraphicAngleSound.written (by omega) _ _ s)) <| rfl)

theorem Graphic.written {H : Heap} {n : Nat} {ver : Version} (hn : 2 ≤ n) (x : Graphic) (v : HVal) (h : Shows H v (Graphic.object x)) :
    W.toBytes H n v ver = Graphic.toBytes ver x := by
  obtain ⟨m, rfl⟩ : ∃ m, n = m + 1 := ⟨n - 1, by omega⟩
  rw [Shows.dispatch (m := Graphic.write) h (by rfl)]
  exact Graphic.write_eq (by omega) x h

theorem TerrainPassGraphic.distinct (x : TerrainPassGraphic) : ((TerrainPassGraphic.object x).attrsOf.map fun p => PyStr.hash p.1).Nodup := by
  have e : ([lit "exit_tile_sprite_id", lit "enter_tile_sprite_id", lit "walk_tile_sprite_id", lit "walk_sprite_rate"] : List PyStr).map PyStr.hash = [131529856669691561722672044765250833109442, 17229131078946892701084640187797783397974222, 133830784901841643730966209106076921833311, 59530857470555452468027652567822499] := by
    decide +kernel
  have e' : ((TerrainPassGraphic.object x).attrsOf.map fun p => PyStr.hash p.1) = [131529856669691561722672044765250833109442, 17229131078946892701084640187797783397974222, 133830784901841643730966209106076921833311, 59530857470555452468027652567822499] := e
  rw [e']
  decide +kernel

theorem TerrainPassGraphic.write_eq {H : Heap} {n : Nat} {ver : Version} (hn : 0 ≤ n) (x : TerrainPassGraphic) {v : HVal} (h : Shows H v (TerrainPassGraphic.object x)) :
    TerrainPassGraphic.write H (W.toBytes H n) v ver = TerrainPassGraphic.toBytes ver x := by
  unfold TerrainPassGraphic.write TerrainPassGraphic.toBytes
  exact congrArg joinB (
    parts_cons (W.int32_eq (h.at (TerrainPassGraphic.distinct x) 0 rfl)) <|
    parts_cons (W.int32_eq (h.at (TerrainPassGraphic.distinct x) 1 rfl)) <|
    parts_cons (W.int32_eq (h.at (TerrainPassGraphic.distinct x) 2 rfl)) <|
    parts_cons (W.int32_eq (h.at (TerrainPassGraphic.distinct x) 3 rfl)) <| rfl)

theorem TerrainPassGraphic.written {H : Heap} {n : Nat} {ver : Version} (hn : 1 ≤ n) (x : TerrainPassGraphic) (v : HVal) (h : Shows H v (TerrainPassGraphic.object x)) :
    W.toBytes H n v ver = TerrainPassGraphic.toBytes ver x := by
  obtain ⟨m, rfl⟩ : ∃ m, n = m + 1 := ⟨n - 1, by omega⟩
  rw [Shows.dispatch (m := TerrainPassGraphic.write) h (by rfl)]
  exact TerrainPassGraphic.write_eq (by omega) x h

theorem TerrainRestriction.distinct (x : TerrainRestriction) : ((TerrainRestriction.object x).attrsOf.map fun p => PyStr.hash p.1).Nodup := by
  have e : ([lit "passable_buildable_dmg_multiplier", lit "terrain_pass_graphics"] : List PyStr).map PyStr.hash = [58265581514458859802084056490673832911075237823338105196226464267390614, 2290092724374479440181849578061047215338706732] := by
    decide +kernel
  have e' : ((TerrainRestriction.object x).attrsOf.map fun p => PyStr.hash p.1) = [58265581514458859802084056490673832911075237823338105196226464267390614, 2290092724374479440181849578061047215338706732] := e
  rw [e']
  decide +kernel

theorem TerrainRestriction.write_eq {H : Heap} {n : Nat} {ver : Version} (hn : 1 ≤ n) (x : TerrainRestriction) {v : HVal} (h : Shows H v (TerrainRestriction.object x)) :
    TerrainRestriction.write H (W.toBytes H n) v ver = TerrainRestriction.toBytes ver x := by
  unfold TerrainRestriction.write TerrainRestriction.toBytes
  rw [(h.at (TerrainRestriction.distinct x) 0 rfl).list.len, (h.at (TerrainRestriction.distinct x) 1 rfl).list.len]
  simp only [bind, Except.bind, List.length_map]
  split
  · rfl
  exact congrArg joinB (
    parts_cons (W.floatArray_eq (h.at (TerrainRestriction.distinct x) 0 rfl).list) <|
    parts_cons (W.classArray_eq (f := TerrainPassGraphic.object) (h.at (TerrainRestriction.distinct x) 1 rfl).list (by intro _ e; cases e) (fun _ m _ s => TerrainPassGraphic.written (by omega) _ _ s)) <| rfl)

theorem TerrainRestriction.written {H : Heap} {n : Nat} {ver : Version} (hn : 2 ≤ n) (x : TerrainRestriction) (v : HVal) (h : Shows H v (TerrainRestriction.object x)) :
    W.toBytes H n v ver = TerrainRestriction.toBytes ver x := by
  obtain ⟨m, rfl⟩ : ∃ m, n = m + 1 := ⟨n - 1, by omega⟩
  rw [Shows.dispatch (m := TerrainRestriction.write) h (by rfl)]
  exact TerrainRestriction.write_eq (by omega) x h

theorem FrameData.distinct (x : FrameData) : ((FrameData.object x).attrsOf.map fun p => PyStr.hash p.1).Nodup := by
  have e : ([lit "frame_count", lit "angle_count", lit "shape_id"] : List PyStr).map PyStr.hash = [1517959899511824913873958, 1510473087495707266231304, 683778008191830816] := by
    decide +kernel
  have e' : ((FrameData.object x).attrsOf.map fun p => PyStr.hash p.1) = [1517959899511824913873958, 1510473087495707266231304, 683778008191830816] := e
  rw [e']
  decide +kernel

theorem FrameData.write_eq {H : Heap} {n : Nat} {ver : Version} (hn : 0 ≤ n) (x : FrameData) {v : HVal} (h : Shows H v (FrameData.object x)) :
    FrameData.write H (W.toBytes H n) v ver = FrameData.toBytes ver x := by
  unfold FrameData.write FrameData.toBytes
  exact congrArg joinB (
    parts_cons (W.int16_eq (h.at (FrameData.distinct x) 0 rfl)) <|
    parts_cons (W.int16_eq (h.at (FrameData.distinct x) 1 rfl)) <|
    parts_cons (W.int16_eq (h.at (FrameData.distinct x) 2 rfl)) <| rfl)

theorem FrameData.written {H : Heap} {n : Nat} {ver : Version} (hn : 1 ≤ n) (x : FrameData) (v : HVal) (h : Shows H v (FrameData.object x)) :
    W.toBytes H n v ver = FrameData.toBytes ver x := by
  obtain ⟨m, rfl⟩ : ∃ m, n = m + 1 := ⟨n - 1, by omega⟩
  rw [Shows.dispatch (m := FrameData.write) h (by rfl)]
  exact FrameData.write_eq (by omega) x h

theorem Terrain.distinct (x : Terrain) : ((Terrain.object x).attrsOf.map fun p => PyStr.hash p.1).Nodup := by
  have e : ([lit "enabled", lit "random", lit "is_water", lit "hide_in_editor", lit "string_id", lit "name", lit "name_2", lit "slp", lit "shape_ptr", lit "sound_id", lit "wwise_sound_id", lit "wwise_sound_stop_id", lit "blend_priority", lit "blend_type", lit "overlay_mask_name", lit "colors", lit "cliff_colors", lit "passable_terrain", lit "impassable_terrain", lit "is_animated", lit "animation_frames", lit "pause_frames", lit "interval", lit "pause_between_loops", lit "frame", lit "draw_frame", lit "animate_last", lit "frame_changed", lit "drawn", lit "frame_data", lit "terrain_to_draw", lit "terrain_dimensions", lit "terrain_unit_masked_density", lit "terrain_unit_id", lit "terrain_unit_density", lit "terrain_unit_centering", lit "number_of_terrain_units_used", lit "phantom"] : List PyStr).map PyStr.hash = [5149156113411642, 39804269343278, 677212899911297449, 3418974697042989787214582268809, 89582949473727985010, 2310468454, 39649949151589, 17724412, 89574919073129959233, 683814156582385870, 3469523386174927221657259037054, 133852441570838081223604408140240364726953, 3398975489662955136533802141337, 11541515794372514688819, 7739568095898794563150252560081149552, 39229695690395, 198258974691182022730051786, 59128935315958505350163587320610052, 1007903952850095329798478205377080262756, 1522436210874389727877337, 58273287563962082901031676560379880, 200777446078662469524493942, 677188435252111476, 132927242369387874052819524290168933327572, 300353380870, 11564756885946098199445, 197871997269439118339893503, 26049709835522427071044357499, 299764382347, 11587480148945230357875, 453132584394716931461337757358311, 1018683284784503580983552646367124857450, 11573929721338466877100211285624095915600680448684656581614, 453132584394716931466356071656577, 17481623850186865956580760321130728466691870, 300002146893056806680882427870837701050826908551, 1507563618434313255082682190873182269891291440117018144009452, 5204517708176526] := by
    decide +kernel
  have e' : ((Terrain.object x).attrsOf.map fun p => PyStr.hash p.1) = [5149156113411642, 39804269343278, 677212899911297449, 3418974697042989787214582268809, 89582949473727985010, 2310468454, 39649949151589, 17724412, 89574919073129959233, 683814156582385870, 3469523386174927221657259037054, 133852441570838081223604408140240364726953, 3398975489662955136533802141337, 11541515794372514688819, 7739568095898794563150252560081149552, 39229695690395, 198258974691182022730051786, 59128935315958505350163587320610052, 1007903952850095329798478205377080262756, 1522436210874389727877337, 58273287563962082901031676560379880, 200777446078662469524493942, 677188435252111476, 132927242369387874052819524290168933327572, 300353380870, 11564756885946098199445, 197871997269439118339893503, 26049709835522427071044357499, 299764382347, 11587480148945230357875, 453132584394716931461337757358311, 1018683284784503580983552646367124857450, 11573929721338466877100211285624095915600680448684656581614, 453132584394716931466356071656577, 17481623850186865956580760321130728466691870, 300002146893056806680882427870837701050826908551, 1507563618434313255082682190873182269891291440117018144009452, 5204517708176526] := e
  rw [e']
  decide +kernel

theorem Terrain.write_eq {H : Heap} {n : Nat} {ver : Version} (hn : 1 ≤ n) (x : Terrain) {v : HVal} (h : Shows H v (Terrain.object x)) :
    Terrain.write H (W.toBytes H n) v ver = Terrain.toBytes ver x := by
  unfold Terrain.write Terrain.toBytes
  exact congrArg joinB (
    parts_cons (W.int8_eq (h.at (Terrain.distinct x) 0 rfl)) <|
    parts_cons (W.int8_eq (h.at (Terrain.distinct x) 1 rfl)) <|
    parts_cons (W.int8_eq (h.at (Terrain.distinct x) 2 rfl)) <|
    parts_cons (W.int8_eq (h.at (Terrain.distinct x) 3 rfl)) <|
    parts_cons (W.int32_eq (h.at (Terrain.distinct x) 4 rfl)) <|
    parts_cons (W.debugString_eq (h.at (Terrain.distinct x) 5 rfl)) <|
    parts_cons (W.debugString_eq (h.at (Terrain.distinct x) 6 rfl)) <|
    parts_cons (W.int32_eq (h.at (Terrain.distinct x) 7 rfl)) <|
    parts_cons (W.int32_eq (h.at (Terrain.distinct x) 8 rfl)) <|
    parts_cons (W.int32_eq (h.at (Terrain.distinct x) 9 rfl)) <|
    parts_cons (W.int32_eq (h.at (Terrain.distinct x) 10 rfl)) <|
    parts_cons (W.int32_eq (h.at (Terrain.distinct x) 11 rfl)) <|
    parts_cons (W.int32_eq (h.at (Terrain.distinct x) 12 rfl)) <|
    parts_cons (W.int32_eq (h.at (Terrain.distinct x) 13 rfl)) <|
    parts_cons (W.debugString_eq (h.at (Terrain.distinct x) 14 rfl)) <|
    parts_cons (W.int8Array_eq (h.at (Terrain.distinct x) 15 rfl).tuple) <|
    parts_cons (W.int8Array_eq (h.at (Terrain.distinct x) 16 rfl).tuple) <|
    parts_cons (W.int8_eq (h.at (Terrain.distinct x) 17 rfl)) <|
    parts_cons (W.int8_eq (h.at (Terrain.distinct x) 18 rfl)) <|
    parts_cons (W.int8_eq (h.at (Terrain.distinct x) 19 rfl)) <|
    parts_cons (W.int16_eq (h.at (Terrain.distinct x) 20 rfl)) <|
    parts_cons (W.int16_eq (h.at (Terrain.distinct x) 21 rfl)) <|
    parts_cons (W.float_eq (h.at (Terrain.distinct x) 22 rfl)) <|
    parts_cons (W.float_eq (h.at (Terrain.distinct x) 23 rfl)) <|
    parts_cons (W.int16_eq (h.at (Terrain.distinct x) 24 rfl)) <|
    parts_cons (W.int16_eq (h.at (Terrain.distinct x) 25 rfl)) <|
    parts_cons (W.float_eq (h.at (Terrain.distinct x) 26 rfl)) <|
    parts_cons (W.int8_eq (h.at (Terrain.distinct x) 27 rfl)) <|
    parts_cons (W.int8_eq (h.at (Terrain.distinct x) 28 rfl)) <|
    parts_cons (W.classArray_eq (f := FrameData.object) (h.at (Terrain.distinct x) 29 rfl).list (by intro _ e; cases e) (fun _ m _ s => FrameData.written (by omega) _ _ s)) <|
    parts_cons (W.int16_eq (h.at (Terrain.distinct x) 30 rfl)) <|
    parts_cons (W.int16Array_eq (h.at (Terrain.distinct x) 31 rfl).tuple) <|
    parts_cons (W.int16Array_eq (h.at (Terrain.distinct x) 32 rfl).list) <|
    parts_cons (W.int16Array_eq (h.at (Terrain.distinct x) 33 rfl).list) <|
    parts_cons (W.int16Array_eq (h.at (Terrain.distinct x) 34 rfl).list) <|
    parts_cons (W.int8Array_eq (h.at (Terrain.distinct x) 35 rfl).list) <|
    parts_cons (W.int16_eq (h.at (Terrain.distinct x) 36 rfl)) <|
    parts_cons (W.int16_eq (h.at (Terrain.distinct x) 37 rfl)) <| rfl)

theorem Terrain.written {H : Heap} {n : Nat} {ver : Version} (hn : 2 ≤ n) (x : Terrain) (v : HVal) (h : Shows H v (Terrain.object x)) :
    W.toBytes H n v ver = Terrain.toBytes ver x := by
  obtain ⟨m, rfl⟩ : ∃ m, n = m + 1 := ⟨n - 1, by omega⟩
  rw [Shows.dispatch (m := Terrain.write) h (by rfl)]
  exact Terrain.write_eq (by omega) x h

theorem TileSize.distinct (x : TileSize) : ((TileSize.object x).attrsOf.map fun p => PyStr.hash p.1).Nodup := by
  have e : ([lit "width", lit "height", lit "delta_y"] : List PyStr).map PyStr.hash = [305339699111, 39419641256570, 5143758264635735] := by
    decide +kernel
  have e' : ((TileSize.object x).attrsOf.map fun p => PyStr.hash p.1) = [305339699111, 39419641256570, 5143758264635735] := e
  rw [e']
  decide +kernel

theorem TileSize.write_eq {H : Heap} {n : Nat} {ver : Version} (hn : 0 ≤ n) (x : TileSize) {v : HVal} (h : Shows H v (TileSize.object x)) :
    TileSize.write H (W.toBytes H n) v ver = TileSize.toBytes ver x := by
  unfold TileSize.write TileSize.toBytes
  exact congrArg joinB (
    parts_cons (W.int16_eq (h.at (TileSize.distinct x) 0 rfl)) <|
    parts_cons (W.int16_eq (h.at (TileSize.distinct x) 1 rfl)) <|
    parts_cons (W.int16_eq (h.at (TileSize.distinct x) 2 rfl)) <| rfl)

theorem TileSize.written {H : Heap} {n : Nat} {ver : Version} (hn : 1 ≤ n) (x : TileSize) (v : HVal) (h : Shows H v (TileSize.object x)) :
    W.toBytes H n v ver = TileSize.toBytes ver x := by
  obtain ⟨m, rfl⟩ : ∃ m, n = m + 1 := ⟨n - 1, by omega⟩
  rw [Shows.dispatch (m := TileSize.write) h (by rfl)]
  exact TileSize.write_eq (by omega) x h

theorem TerrainBlock.distinct (x : TerrainBlock) : ((TerrainBlock.object x).attrsOf.map fun p => PyStr.hash p.1).Nodup := by
  have e : ([lit "virtual_function_ptr", lit "map_pointer", lit "map_width", lit "map_height", lit "world_width", lit "world_height", lit "tile_sizes", lit "padding_ts", lit "terrains", lit "map_min_x", lit "map_min_y", lit "map_max_x", lit "map_max_y", lit "map_max_x_plus_1", lit "map_max_y_plus_1", lit "terrains_used_2", lit "borders_used", lit "max_terrain", lit "tile_width", lit "tile_height", lit "tile_half_height", lit "tile_half_width", lit "elev_height", lit "cur_row", lit "cur_col", lit "block_beg_row", lit "block_end_row", lit "block_beg_col", lit "block_end_col", lit "search_map_ptr", lit "search_map_rows_ptr", lit "any_frame_change", lit "map_visible_flag", lit "fog_flag"] : List PyStr).map PyStr.hash = [17515961072730303724470103571157291417135054, 1528186682241208159324719, 89049978572131729804, 11665547192369397277353, 1543229697657647382431778, 202163090393151227239235947, 11745770012308127230420, 11699624242892044998780, 684425565505802609, 89049978569186899469, 89049978569186899470, 89049978569169086351, 89049978569169086352, 58956662291715115347074634538482392, 58956662291715115347736697160383203, 453132584394716944596695388288462, 198068564513284433197342868, 1528187376102668428221375, 11745770012309304854516, 1538695871611939076614625, 59362101454889183107152433138742061, 453145812632741855779793992351672, 1516403705399568443810423, 5139323343409316, 5139323343151890, 25946392543085714716219456046, 25946392543085730224290795985, 25946392543085714716219198620, 25946392543085730224290538559, 3455678040211569976536763850747, 133318295189530225760262395100007453644671, 58273340743457163630851584838237632, 58956662293481762916388720294626235, 675206797972039628] := by
    decide +kernel
  have e' : ((TerrainBlock.object x).attrsOf.map fun p => PyStr.hash p.1) = [17515961072730303724470103571157291417135054, 1528186682241208159324719, 89049978572131729804, 11665547192369397277353, 1543229697657647382431778, 202163090393151227239235947, 11745770012308127230420, 11699624242892044998780, 684425565505802609, 89049978569186899469, 89049978569186899470, 89049978569169086351, 89049978569169086352, 58956662291715115347074634538482392, 58956662291715115347736697160383203, 453132584394716944596695388288462, 198068564513284433197342868, 1528187376102668428221375, 11745770012309304854516, 1538695871611939076614625, 59362101454889183107152433138742061, 453145812632741855779793992351672, 1516403705399568443810423, 5139323343409316, 5139323343151890, 25946392543085714716219456046, 25946392543085730224290795985, 25946392543085714716219198620, 25946392543085730224290538559, 3455678040211569976536763850747, 133318295189530225760262395100007453644671, 58273340743457163630851584838237632, 58956662293481762916388720294626235, 675206797972039628] := e
  rw [e']
  decide +kernel

theorem TerrainBlock.write_eq {H : Heap} {n : Nat} {ver : Version} (hn : 2 ≤ n) (x : TerrainBlock) {v : HVal} (h : Shows H v (TerrainBlock.object x)) :
    TerrainBlock.write H (W.toBytes H n) v ver = TerrainBlock.toBytes ver x := by
  unfold TerrainBlock.write TerrainBlock.toBytes
  exact congrArg joinB (
    parts_cons (W.int32_eq (h.at (TerrainBlock.distinct x) 0 rfl)) <|
    parts_cons (W.int32_eq (h.at (TerrainBlock.distinct x) 1 rfl)) <|
    parts_cons (W.int32_eq (h.at (TerrainBlock.distinct x) 2 rfl)) <|
    parts_cons (W.int32_eq (h.at (TerrainBlock.distinct x) 3 rfl)) <|
    parts_cons (W.int32_eq (h.at (TerrainBlock.distinct x) 4 rfl)) <|
    parts_cons (W.int32_eq (h.at (TerrainBlock.distinct x) 5 rfl)) <|
    parts_cons (W.classArray_eq (f := TileSize.object) (h.at (TerrainBlock.distinct x) 6 rfl).list (by intro _ e; cases e) (fun _ m _ s => TileSize.written (by omega) _ _ s)) <|
    parts_cons (W.int16_eq (h.at (TerrainBlock.distinct x) 7 rfl)) <|
    parts_cons (W.classArray_eq (f := Terrain.object) (h.at (TerrainBlock.distinct x) 8 rfl).list (by intro _ e; cases e) (fun _ m _ s => Terrain.written (by omega) _ _ s)) <|
    parts_cons (W.float_eq (h.at (TerrainBlock.distinct x) 9 rfl)) <|
    parts_cons (W.float_eq (h.at (TerrainBlock.distinct x) 10 rfl)) <|
    parts_cons (W.float_eq (h.at (TerrainBlock.distinct x) 11 rfl)) <|
    parts_cons (W.float_eq (h.at (TerrainBlock.distinct x) 12 rfl)) <|
    parts_cons (W.float_eq (h.at (TerrainBlock.distinct x) 13 rfl)) <|
    parts_cons (W.float_eq (h.at (TerrainBlock.distinct x) 14 rfl)) <|
    parts_cons (W.int16_eq (h.at (TerrainBlock.distinct x) 15 rfl)) <|
    parts_cons (W.int16_eq (h.at (TerrainBlock.distinct x) 16 rfl)) <|
    parts_cons (W.int16_eq (h.at (TerrainBlock.distinct x) 17 rfl)) <|
    parts_cons (W.int16_eq (h.at (TerrainBlock.distinct x) 18 rfl)) <|
    parts_cons (W.int16_eq (h.at (TerrainBlock.distinct x) 19 rfl)) <|
    parts_cons (W.int16_eq (h.at (TerrainBlock.distinct x) 20 rfl)) <|
    parts_cons (W.int16_eq (h.at (TerrainBlock.distinct x) 21 rfl)) <|
    parts_cons (W.int16_eq (h.at (TerrainBlock.distinct x) 22 rfl)) <|
    parts_cons (W.int16_eq (h.at (TerrainBlock.distinct x) 23 rfl)) <|
    parts_cons (W.int16_eq (h.at (TerrainBlock.distinct x) 24 rfl)) <|
    parts_cons (W.int16_eq (h.at (TerrainBlock.distinct x) 25 rfl)) <|
    parts_cons (W.int16_eq (h.at (TerrainBlock.distinct x) 26 rfl)) <|
    parts_cons (W.int16_eq (h.at (TerrainBlock.distinct x) 27 rfl)) <|
    parts_cons (W.int16_eq (h.at (TerrainBlock.distinct x) 28 rfl)) <|
    parts_cons (W.int32_eq (h.at (TerrainBlock.distinct x) 29 rfl)) <|
    parts_cons (W.int32_eq (h.at (TerrainBlock.distinct x) 30 rfl)) <|
    parts_cons (W.int8_eq (h.at (TerrainBlock.distinct x) 31 rfl)) <|
    parts_cons (W.int8_eq (h.at (TerrainBlock.distinct x) 32 rfl)) <|
    parts_cons (W.int8_eq (h.at (TerrainBlock.distinct x) 33 rfl)) <| rfl)

theorem TerrainBlock.written {H : Heap} {n : Nat} {ver : Version} (hn : 3 ≤ n) (x : TerrainBlock) (v : HVal) (h : Shows H v (TerrainBlock.object x)) :
    W.toBytes H n v ver = TerrainBlock.toBytes ver x := by
  obtain ⟨m, rfl⟩ : ∃ m, n = m + 1 := ⟨n - 1, by omega⟩
  rw [Shows.dispatch (m := TerrainBlock.write) h (by rfl)]
  exact TerrainBlock.write_eq (by omega) x h

theorem MapUnit.distinct (x : MapUnit) : ((MapUnit.object x).attrsOf.map fun p => PyStr.hash p.1).Nodup := by
  have e : ([lit "unit", lit "host_terrain", lit "group_placing", lit "scale_flag", lit "padding_1", lit "objects_per_group", lit "fluctuation", lit "groups_per_player", lit "group_arena", lit "player_id", lit "set_place_for_all_players", lit "min_distance_to_players", lit "max_distance_to_players"] : List PyStr).map PyStr.hash = [2326427675, 199238441597742590967750325, 26075272802718018906434539653, 11733880727347004430872, 89310108724366755648, 7738421827290963996998308853839898707, 1517893457631998304056585, 7679165780457779444412473626876853579, 1519449496108498533326548, 89317377060468371150, 673779801254038579191236250038708037983849595916364374, 39035319582621771700483874709212066798513307216464, 39033020136348917915180180017312708160652436758626] := by
    decide +kernel
  have e' : ((MapUnit.object x).attrsOf.map fun p => PyStr.hash p.1) = [2326427675, 199238441597742590967750325, 26075272802718018906434539653, 11733880727347004430872, 89310108724366755648, 7738421827290963996998308853839898707, 1517893457631998304056585, 7679165780457779444412473626876853579, 1519449496108498533326548, 89317377060468371150, 673779801254038579191236250038708037983849595916364374, 39035319582621771700483874709212066798513307216464, 39033020136348917915180180017312708160652436758626] := e
  rw [e']
  decide +kernel

theorem MapUnit.write_eq {H : Heap} {n : Nat} {ver : Version} (hn : 0 ≤ n) (x : MapUnit) {v : HVal} (h : Shows H v (MapUnit.object x)) :
    MapUnit.write H (W.toBytes H n) v ver = MapUnit.toBytes ver x := by
  unfold MapUnit.write MapUnit.toBytes
  exact congrArg joinB (
    parts_cons (W.int32_eq (h.at (MapUnit.distinct x) 0 rfl)) <|
    parts_cons (W.int32_eq (h.at (MapUnit.distinct x) 1 rfl)) <|
    parts_cons (W.int8_eq (h.at (MapUnit.distinct x) 2 rfl)) <|
    parts_cons (W.int8_eq (h.at (MapUnit.distinct x) 3 rfl)) <|
    parts_cons (W.int16_eq (h.at (MapUnit.distinct x) 4 rfl)) <|
    parts_cons (W.int32_eq (h.at (MapUnit.distinct x) 5 rfl)) <|
    parts_cons (W.int32_eq (h.at (MapUnit.distinct x) 6 rfl)) <|
    parts_cons (W.int32_eq (h.at (MapUnit.distinct x) 7 rfl)) <|
    parts_cons (W.int32_eq (h.at (MapUnit.distinct x) 8 rfl)) <|
    parts_cons (W.int32_eq (h.at (MapUnit.distinct x) 9 rfl)) <|
    parts_cons (W.int32_eq (h.at (MapUnit.distinct x) 10 rfl)) <|
    parts_cons (W.int32_eq (h.at (MapUnit.distinct x) 11 rfl)) <|
    parts_cons (W.int32_eq (h.at (MapUnit.distinct x) 12 rfl)) <| rfl)

theorem MapUnit.written {H : Heap} {n : Nat} {ver : Version} (hn : 1 ≤ n) (x : MapUnit) (v : HVal) (h : Shows H v (MapUnit.object x)) :
    W.toBytes H n v ver = MapUnit.toBytes ver x := by
  obtain ⟨m, rfl⟩ : ∃ m, n = m + 1 := ⟨n - 1, by omega⟩
  rw [Shows.dispatch (m := MapUnit.write) h (by rfl)]
  exact MapUnit.write_eq (by omega) x h

theorem MapTerrain.distinct (x : MapTerrain) : ((MapTerrain.object x).attrsOf.map fun p => PyStr.hash p.1).Nodup := by
  have e : ([lit "proportion", lit "terrain", lit "clump_count", lit "edge_spacing", lit "placement_terrain", lit "clumpiness"] : List PyStr).map PyStr.hash = [11701105999919501078893, 5224622637448874, 1513428333166365851375040, 198636999640125478170878048, 7746514212159252760044780118566124652, 11552888039440876818748] := by
    decide +kernel
  have e' : ((MapTerrain.object x).attrsOf.map fun p => PyStr.hash p.1) = [11701105999919501078893, 5224622637448874, 1513428333166365851375040, 198636999640125478170878048, 7746514212159252760044780118566124652, 11552888039440876818748] := e
  rw [e']
  decide +kernel

theorem MapTerrain.write_eq {H : Heap} {n : Nat} {ver : Version} (hn : 0 ≤ n) (x : MapTerrain) {v : HVal} (h : Shows H v (MapTerrain.object x)) :
    MapTerrain.write H (W.toBytes H n) v ver = MapTerrain.toBytes ver x := by
  unfold MapTerrain.write MapTerrain.toBytes
  exact congrArg joinB (
    parts_cons (W.int32_eq (h.at (MapTerrain.distinct x) 0 rfl)) <|
    parts_cons (W.int32_eq (h.at (MapTerrain.distinct x) 1 rfl)) <|
    parts_cons (W.int32_eq (h.at (MapTerrain.distinct x) 2 rfl)) <|
    parts_cons (W.int32_eq (h.at (MapTerrain.distinct x) 3 rfl)) <|
    parts_cons (W.int32_eq (h.at (MapTerrain.distinct x) 4 rfl)) <|
    parts_cons (W.int32_eq (h.at (MapTerrain.distinct x) 5 rfl)) <| rfl)

theorem MapTerrain.written {H : Heap} {n : Nat} {ver : Version} (hn : 1 ≤ n) (x : MapTerrain) (v : HVal) (h : Shows H v (MapTerrain.object x)) :
    W.toBytes H n v ver = MapTerrain.toBytes ver x := by
  obtain ⟨m, rfl⟩ : ∃ m, n = m + 1 := ⟨n - 1, by omega⟩
  rw [Shows.dispatch (m := MapTerrain.write) h (by rfl)]
  exact MapTerrain.write_eq (by omega) x h

theorem MapLand.distinct (x : MapLand) : ((MapLand.object x).attrsOf.map fun p => PyStr.hash p.1).Nodup := by
  have e : ([lit "land_id", lit "terrain", lit "land_spacing", lit "base_size", lit "zone", lit "placement_type", lit "padding_1", lit "base_x", lit "base_y", lit "land_proportion", lit "by_player_flag", lit "padding_2", lit "start_area_radius", lit "terrain_edge_fade", lit "clumpiness"] : List PyStr).map PyStr.hash = [5184035804828732, 5224622637448874, 199997455682854552897640918, 88095961720143601296, 2337685931, 3445818791214080195172162020815, 89310108724366755648, 39187008764393, 39187008764394, 449612480143490272503464351013643, 3399306369361351877225436684549, 89310108724366755649, 7769540013918331660984605624438819832, 7776208280797737259499821977449994049, 11552888039440876818748] := by
    decide +kernel
  have e' : ((MapLand.object x).attrsOf.map fun p => PyStr.hash p.1) = [5184035804828732, 5224622637448874, 199997455682854552897640918, 88095961720143601296, 2337685931, 3445818791214080195172162020815, 89310108724366755648, 39187008764393, 39187008764394, 449612480143490272503464351013643, 3399306369361351877225436684549, 89310108724366755649, 7769540013918331660984605624438819832, 7776208280797737259499821977449994049, 11552888039440876818748] := e
  rw [e']
  decide +kernel

theorem MapLand.write_eq {H : Heap} {n : Nat} {ver : Version} (hn : 0 ≤ n) (x : MapLand) {v : HVal} (h : Shows H v (MapLand.object x)) :
    MapLand.write H (W.toBytes H n) v ver = MapLand.toBytes ver x := by
  unfold MapLand.write MapLand.toBytes
  exact congrArg joinB (
    parts_cons (W.int32_eq (h.at (MapLand.distinct x) 0 rfl)) <|
    parts_cons (W.int32_eq (h.at (MapLand.distinct x) 1 rfl)) <|
    parts_cons (W.int32_eq (h.at (MapLand.distinct x) 2 rfl)) <|
    parts_cons (W.int32_eq (h.at (MapLand.distinct x) 3 rfl)) <|
    parts_cons (W.int8_eq (h.at (MapLand.distinct x) 4 rfl)) <|
    parts_cons (W.int8_eq (h.at (MapLand.distinct x) 5 rfl)) <|
    parts_cons (W.int16_eq (h.at (MapLand.distinct x) 6 rfl)) <|
    parts_cons (W.int32_eq (h.at (MapLand.distinct x) 7 rfl)) <|
    parts_cons (W.int32_eq (h.at (MapLand.distinct x) 8 rfl)) <|
    parts_cons (W.int8_eq (h.at (MapLand.distinct x) 9 rfl)) <|
    parts_cons (W.int8_eq (h.at (MapLand.distinct x) 10 rfl)) <|
    parts_cons (W.int16_eq (h.at (MapLand.distinct x) 11 rfl)) <|
    parts_cons (W.int32_eq (h.at (MapLand.distinct x) 12 rfl)) <|
    parts_cons (W.int32_eq (h.at (MapLand.distinct x) 13 rfl)) <|
    parts_cons (W.int32_eq (h.at (MapLand.distinct x) 14 rfl)) <| rfl)

theorem MapLand.written {H : Heap} {n : Nat} {ver : Version} (hn : 1 ≤ n) (x : MapLand) (v : HVal) (h : Shows H v (MapLand.object x)) :
    W.toBytes H n v ver = MapLand.toBytes ver x := by
  obtain ⟨m, rfl⟩ : ∃ m, n = m + 1 := ⟨n - 1, by omega⟩
  rw [Shows.dispatch (m := MapLand.write) h (by rfl)]
  exact MapLand.write_eq (by omega) x h

theorem MapElevation.distinct (x : MapElevation) : ((MapElevation.object x).attrsOf.map fun p => PyStr.hash p.1).Nodup := by
  have e : ([lit "proportion", lit "terrain", lit "clump_count", lit "base_terrain", lit "base_elevation", lit "tile_spacing"] : List PyStr).map PyStr.hash = [11701105999919501078893, 5224622637448874, 1513428333166365851375040, 198047738679404246051215910, 3398697243475959882324706184370, 201569159181220034090513873] := by
    decide +kernel
  have e' : ((MapElevation.object x).attrsOf.map fun p => PyStr.hash p.1) = [11701105999919501078893, 5224622637448874, 1513428333166365851375040, 198047738679404246051215910, 3398697243475959882324706184370, 201569159181220034090513873] := e
  rw [e']
  decide +kernel

theorem MapElevation.write_eq {H : Heap} {n : Nat} {ver : Version} (hn : 0 ≤ n) (x : MapElevation) {v : HVal} (h : Shows H v (MapElevation.object x)) :
    MapElevation.write H (W.toBytes H n) v ver = MapElevation.toBytes ver x := by
  unfold MapElevation.write MapElevation.toBytes
  exact congrArg joinB (
    parts_cons (W.int32_eq (h.at (MapElevation.distinct x) 0 rfl)) <|
    parts_cons (W.int32_eq (h.at (MapElevation.distinct x) 1 rfl)) <|
    parts_cons (W.int32_eq (h.at (MapElevation.distinct x) 2 rfl)) <|
    parts_cons (W.int32_eq (h.at (MapElevation.distinct x) 3 rfl)) <|
    parts_cons (W.int32_eq (h.at (MapElevation.distinct x) 4 rfl)) <|
    parts_cons (W.int32_eq (h.at (MapElevation.distinct x) 5 rfl)) <| rfl)

theorem MapElevation.written {H : Heap} {n : Nat} {ver : Version} (hn : 1 ≤ n) (x : MapElevation) (v : HVal) (h : Shows H v (MapElevation.object x)) :
    W.toBytes H n v ver = MapElevation.toBytes ver x := by
  obtain ⟨m, rfl⟩ : ∃ m, n = m + 1 := ⟨n - 1, by omega⟩
  rw [Shows.dispatch (m := MapElevation.write) h (by rfl)]
  exact MapElevation.write_eq (by omega) x h

theorem MapInfo.distinct (x : MapInfo) : ((MapInfo.object x).attrsOf.map fun p => PyStr.hash p.1).Nodup := by
  have e : ([lit "map_id", lit "border_south_west", lit "border_north_west", lit "border_north_east", lit "border_south_east", lit "border_usage", lit "water_shape", lit "base_terrain", lit "land_coverage", lit "unused_id", lit "map_lands_size", lit "map_lands_ptr", lit "map_lands", lit "map_terrains_size", lit "map_terrains_ptr", lit "map_terrains", lit "map_units_size", lit "map_units_ptr", lit "map_units", lit "map_elevations_size", lit "map_elevations_ptr", lit "map_elevations"] : List PyStr).map PyStr.hash = [39611376304605, 7641384134828653101730007368870625229, 7641384134828653044919737908805834941, 7641384134828653044919737908765300659, 7641384134828653101730007368830090947, 198068564513283668081743293, 1543070803361207413412738, 198047738679404246051215910, 26199666694443349184505695341, 89752453049811678417, 3435502726619662302371777141918, 26225211653585208415051683857, 89049978568874415470, 7723322760394245570136880485682695420, 58956662293085844046846415921191899, 200192455376196328578459672, 3435502726723041475456333385631, 26225211654374362408063563580, 89049978571554056233, 132539941884573835281795686406749876745200, 1011755281561632330395386919135495192279, 3435502726541078869747428282452] := by
    decide +kernel
  have e' : ((MapInfo.object x).attrsOf.map fun p => PyStr.hash p.1) = [39611376304605, 7641384134828653101730007368870625229, 7641384134828653044919737908805834941, 7641384134828653044919737908765300659, 7641384134828653101730007368830090947, 198068564513283668081743293, 1543070803361207413412738, 198047738679404246051215910, 26199666694443349184505695341, 89752453049811678417, 3435502726619662302371777141918, 26225211653585208415051683857, 89049978568874415470, 7723322760394245570136880485682695420, 58956662293085844046846415921191899, 200192455376196328578459672, 3435502726723041475456333385631, 26225211654374362408063563580, 89049978571554056233, 132539941884573835281795686406749876745200, 1011755281561632330395386919135495192279, 3435502726541078869747428282452] := e
  rw [e']
  decide +kernel

theorem MapInfo.write_eq {H : Heap} {n : Nat} {ver : Version} (hn : 1 ≤ n) (x : MapInfo) {v : HVal} (h : Shows H v (MapInfo.object x)) :
    MapInfo.write H (W.toBytes H n) v ver = MapInfo.toBytes ver x := by
  unfold MapInfo.write MapInfo.toBytes
  exact congrArg joinB (
    parts_cons (W.int32_eq (h.at (MapInfo.distinct x) 0 rfl)) <|
    parts_cons (W.int32_eq (h.at (MapInfo.distinct x) 1 rfl)) <|
    parts_cons (W.int32_eq (h.at (MapInfo.distinct x) 2 rfl)) <|
    parts_cons (W.int32_eq (h.at (MapInfo.distinct x) 3 rfl)) <|
    parts_cons (W.int32_eq (h.at (MapInfo.distinct x) 4 rfl)) <|
    parts_cons (W.int32_eq (h.at (MapInfo.distinct x) 5 rfl)) <|
    parts_cons (W.int32_eq (h.at (MapInfo.distinct x) 6 rfl)) <|
    parts_cons (W.int32_eq (h.at (MapInfo.distinct x) 7 rfl)) <|
    parts_cons (W.int32_eq (h.at (MapInfo.distinct x) 8 rfl)) <|
    parts_cons (W.int32_eq (h.at (MapInfo.distinct x) 9 rfl)) <|
    parts_cons (W.int32_eq (h.at (MapInfo.distinct x) 10 rfl)) <|
    parts_cons (W.int32_eq (h.at (MapInfo.distinct x) 11 rfl)) <|
    parts_cons (W.classArray_eq (f := MapLand.object) (h.at (MapInfo.distinct x) 12 rfl).list (by intro _ e; cases e) (fun _ m _ s => MapLand.written (by omega) _ _ s)) <|
    parts_cons (W.int32_eq (h.at (MapInfo.distinct x) 13 rfl)) <|
    parts_cons (W.int32_eq (h.at (MapInfo.distinct x) 14 rfl)) <|
    parts_cons (W.classArray_eq (f := MapTerrain.object) (h.at (MapInfo.distinct x) 15 rfl).list (by intro _ e; cases e) (fun _ m _ s => MapTerrain.written (by omega) _ _ s)) <|
    parts_cons (W.int32_eq (h.at (MapInfo.distinct x) 16 rfl)) <|
    parts_cons (W.int32_eq (h.at (MapInfo.distinct x) 17 rfl)) <|
    parts_cons (W.classArray_eq (f := MapUnit.object) (h.at (MapInfo.distinct x) 18 rfl).list (by intro _ e; cases e) (fun _ m _ s => MapUnit.written (by omega) _ _ s)) <|
    parts_cons (W.int32_eq (h.at (MapInfo.distinct x) 19 rfl)) <|
    parts_cons (W.int32_eq (h.at (MapInfo.distinct x) 20 rfl)) <|
    parts_cons (W.classArray_eq (f := MapElevation.object) (h.at (MapInfo.distinct x) 21 rfl).list (by intro _ e; cases e) (fun _ m _ s => MapElevation.written (by omega) _ _ s)) <| rfl)

theorem MapInfo.written {H : Heap} {n : Nat} {ver : Version} (hn : 2 ≤ n) (x : MapInfo) (v : HVal) (h : Shows H v (MapInfo.object x)) :
    W.toBytes H n v ver = MapInfo.toBytes ver x := by
  obtain ⟨m, rfl⟩ : ∃ m, n = m + 1 := ⟨n - 1, by omega⟩
  rw [Shows.dispatch (m := MapInfo.write) h (by rfl)]
  exact MapInfo.write_eq (by omega) x h

theorem RandomMaps.distinct (x : RandomMaps) : ((RandomMaps.object x).attrsOf.map fun p => PyStr.hash p.1).Nodup := by
  have e : ([lit "random_maps_ptr", lit "map_info_1", lit "map_info_2"] : List PyStr).map PyStr.hash = [452242441659177627958542198752103, 11665547192410620658062, 11665547192410620658063] := by
    decide +kernel
  have e' : ((RandomMaps.object x).attrsOf.map fun p => PyStr.hash p.1) = [452242441659177627958542198752103, 11665547192410620658062, 11665547192410620658063] := e
  rw [e']
  decide +kernel

theorem RandomMaps.write_eq {H : Heap} {n : Nat} {ver : Version} (hn : 2 ≤ n) (x : RandomMaps) {v : HVal} (h : Shows H v (RandomMaps.object x)) :
    RandomMaps.write H (W.toBytes H n) v ver = RandomMaps.toBytes ver x := by
  unfold RandomMaps.write RandomMaps.toBytes
  rw [(h.at (RandomMaps.distinct x) 1 rfl).list.len, (h.at (RandomMaps.distinct x) 2 rfl).list.len]
  simp only [bind, Except.bind, List.length_map]
  split
  · rfl
  exact congrArg joinB (
    parts_cons (W.int32_eq (a := W.nat (.ok _)) (Ev.ok (Shows.int _))) <|
    parts_cons (W.int32_eq (h.at (RandomMaps.distinct x) 0 rfl)) <|
    parts_cons (W.classArray_eq (f := MapInfo.object) (h.at (RandomMaps.distinct x) 1 rfl).list (by intro _ e; cases e) (fun _ m _ s => MapInfo.written (by omega) _ _ s)) <|
    parts_cons (W.classArray_eq (f := MapInfo.object) (h.at (RandomMaps.distinct x) 2 rfl).list (by intro _ e; cases e) (fun _ m _ s => MapInfo.written (by omega) _ _ s)) <| rfl)

theorem RandomMaps.written {H : Heap} {n : Nat} {ver : Version} (hn : 3 ≤ n) (x : RandomMaps) (v : HVal) (h : Shows H v (RandomMaps.object x)) :
    W.toBytes H n v ver = RandomMaps.toBytes ver x := by
  obtain ⟨m, rfl⟩ : ∃ m, n = m + 1 := ⟨n - 1, by omega⟩
  rw [Shows.dispatch (m := RandomMaps.write) h (by rfl)]
  exact RandomMaps.write_eq (by omega) x h

theorem ResearchResourceCost.distinct (x : ResearchResourceCost) : ((ResearchResourceCost.object x).attrsOf.map fun p => PyStr.hash p.1).Nodup := by
  have e : ([lit "type", lit "amount", lit "flag"] : List PyStr).map PyStr.hash = [2324369257, 39151954557967, 2292670927] := by
    decide +kernel
  have e' : ((ResearchResourceCost.object x).attrsOf.map fun p => PyStr.hash p.1) = [2324369257, 39151954557967, 2292670927] := e
  rw [e']
  decide +kernel

theorem ResearchResourceCost.write_eq {H : Heap} {n : Nat} {ver : Version} (hn : 0 ≤ n) (x : ResearchResourceCost) {v : HVal} (h : Shows H v (ResearchResourceCost.object x)) :
    ResearchResourceCost.write H (W.toBytes H n) v ver = ResearchResourceCost.toBytes ver x := by
  unfold ResearchResourceCost.write ResearchResourceCost.toBytes
  exact congrArg joinB (
    parts_cons (W.int16_eq (h.at (ResearchResourceCost.distinct x) 0 rfl)) <|
    parts_cons (W.int16_eq (h.at (ResearchResourceCost.distinct x) 1 rfl)) <|
    parts_cons (W.int8_eq (h.at (ResearchResourceCost.distinct x) 2 rfl)) <| rfl)

theorem ResearchResourceCost.written {H : Heap} {n : Nat} {ver : Version} (hn : 1 ≤ n) (x : ResearchResourceCost) (v : HVal) (h : Shows H v (ResearchResourceCost.object x)) :
    W.toBytes H n v ver = ResearchResourceCost.toBytes ver x := by
  obtain ⟨m, rfl⟩ : ∃ m, n = m + 1 := ⟨n - 1, by omega⟩
  rw [Shows.dispatch (m := ResearchResourceCost.write) h (by rfl)]
  exact ResearchResourceCost.write_eq (by omega) x h

theorem ResearchLocation.distinct (x : ResearchLocation) : ((ResearchLocation.object x).attrsOf.map fun p => PyStr.hash p.1).Nodup := by
  have e : ([lit "location_id", lit "research_time", lit "button_id", lit "hot_key_id"] : List PyStr).map PyStr.hash = [1526856242264104789668274, 26353706285852449604834980298, 88109208609887691005, 11609955780312026181352] := by
    decide +kernel
  have e' : ((ResearchLocation.object x).attrsOf.map fun p => PyStr.hash p.1) = [1526856242264104789668274, 26353706285852449604834980298, 88109208609887691005, 11609955780312026181352] := e
  rw [e']
  decide +kernel

theorem ResearchLocation.write_eq {H : Heap} {n : Nat} {ver : Version} (hn : 0 ≤ n) (x : ResearchLocation) {v : HVal} (h : Shows H v (ResearchLocation.object x)) :
    ResearchLocation.write H (W.toBytes H n) v ver = ResearchLocation.toBytes ver x := by
  unfold ResearchLocation.write ResearchLocation.toBytes
  exact congrArg joinB (
    parts_cons (W.int16_eq (h.at (ResearchLocation.distinct x) 0 rfl)) <|
    parts_cons (W.int16_eq (h.at (ResearchLocation.distinct x) 1 rfl)) <|
    parts_cons (W.int8_eq (h.at (ResearchLocation.distinct x) 2 rfl)) <|
    parts_cons (W.int32_eq (h.at (ResearchLocation.distinct x) 3 rfl)) <| rfl)

theorem ResearchLocation.written {H : Heap} {n : Nat} {ver : Version} (hn : 1 ≤ n) (x : ResearchLocation) (v : HVal) (h : Shows H v (ResearchLocation.object x)) :
    W.toBytes H n v ver = ResearchLocation.toBytes ver x := by
  obtain ⟨m, rfl⟩ : ∃ m, n = m + 1 := ⟨n - 1, by omega⟩
  rw [Shows.dispatch (m := ResearchLocation.write) h (by rfl)]
  exact ResearchLocation.write_eq (by omega) x h

theorem Tech.distinct (x : Tech) : ((Tech.object x).attrsOf.map fun p => PyStr.hash p.1).Nodup := by
  have e : ([lit "required_techs", lit "resource_costs", lit "required_tech_count", lit "civ", lit "full_tech_mode", lit "language_dll_name", lit "language_dll_description", lit "effect_id", lit "type", lit "icon_id", lit "language_dll_help", lit "language_dll_tech_tree", lit "name", lit "repeatable", lit "research_locations"] : List PyStr).map PyStr.hash = [3452335157396818109400921977592, 3452335538557674233471607450560, 133189328476574000351962255243626835160015, 17449449, 3412590757764211742093307341543, 7715799782339441217362266255101427926, 5108342633957357281771267085790788617100953797383737, 88359396943969322358, 2324369257, 5168951541356022, 7715799782339441217362266255088007904, 297671617851952525014350392507115043702588301396, 2310468454, 11722702426513294257092, 1016712538920538227242040242058409809309] := by
    decide +kernel
  have e' : ((Tech.object x).attrsOf.map fun p => PyStr.hash p.1) = [3452335157396818109400921977592, 3452335538557674233471607450560, 133189328476574000351962255243626835160015, 17449449, 3412590757764211742093307341543, 7715799782339441217362266255101427926, 5108342633957357281771267085790788617100953797383737, 88359396943969322358, 2324369257, 5168951541356022, 7715799782339441217362266255088007904, 297671617851952525014350392507115043702588301396, 2310468454, 11722702426513294257092, 1016712538920538227242040242058409809309] := e
  rw [e']
  decide +kernel

theorem Tech.write84_eq {H : Heap} {n : Nat} {ver : Version} (hn : 1 ≤ n) (x : Tech) {v : HVal} (h : Shows H v (Tech.object x)) :
    Tech.write84 H (W.toBytes H n) v ver = Tech.toBytes84 ver x := by
  unfold Tech.write84 Tech.toBytes84
  have ht := (h.at (Tech.distinct x) 14 rfl).list
  rw [ht.len]
  cases htl : x.research_locations with
  | nil =>
    simp only [bind, Except.bind, List.length_map, htl, List.length_nil, ne_eq, not_true_eq_false, if_false]
    have h_research_location := Ev.ok (H := H) (Shows.int (H := H) (-1))
    have h_research_time := Ev.ok (H := H) (Shows.int (H := H) (0))
    have h_button_id := Ev.ok (H := H) (Shows.int (H := H) (0))
    have h_hot_key := Ev.ok (H := H) (Shows.int (H := H) (-1))
    exact congrArg joinB (
    parts_cons (W.int16Array_eq (h.at (Tech.distinct x) 0 rfl).tuple) <|
    parts_cons (W.classArray_eq (f := ResearchResourceCost.object) (h.at (Tech.distinct x) 1 rfl).tuple (by intro _ e; cases e) (fun _ m _ s => ResearchResourceCost.written (by omega) _ _ s)) <|
    parts_cons (W.int16_eq (h.at (Tech.distinct x) 2 rfl)) <|
    parts_cons (W.int16_eq (h.at (Tech.distinct x) 3 rfl)) <|
    parts_cons (W.int16_eq (h.at (Tech.distinct x) 4 rfl)) <|
    parts_cons (W.int16_eq h_research_location) <|
    parts_cons (W.int32_eq (h.at (Tech.distinct x) 5 rfl)) <|
    parts_cons (W.int32_eq (h.at (Tech.distinct x) 6 rfl)) <|
    parts_cons (W.int16_eq h_research_time) <|
    parts_cons (W.int16_eq (h.at (Tech.distinct x) 7 rfl)) <|
    parts_cons (W.int16_eq (h.at (Tech.distinct x) 8 rfl)) <|
    parts_cons (W.int16_eq (h.at (Tech.distinct x) 9 rfl)) <|
    parts_cons (W.int8_eq h_button_id) <|
    parts_cons (W.int32_eq (h.at (Tech.distinct x) 10 rfl)) <|
    parts_cons (W.int32_eq (h.at (Tech.distinct x) 11 rfl)) <|
    parts_cons (W.int32_eq h_hot_key) <|
    parts_cons (W.debugString_eq (h.at (Tech.distinct x) 12 rfl)) <|
    parts_cons (W.int8_eq (h.at (Tech.distinct x) 13 rfl)) <| rfl)
  | cons t ts =>
    rw [htl] at ht
    have h_first := ht.first
    have g_research_location := (h_first.at (ResearchLocation.distinct _) 0 rfl).int
    have g_research_time := (h_first.at (ResearchLocation.distinct _) 1 rfl).int
    have g_button_id := (h_first.at (ResearchLocation.distinct _) 2 rfl).int
    have g_hot_key := (h_first.at (ResearchLocation.distinct _) 3 rfl).int
    simp only [bind, Except.bind, List.length_map, htl, List.length_cons, ne_eq, Nat.succ_ne_zero, not_false_eq_true, if_true, g_research_location, g_research_time, g_button_id, g_hot_key]
    have h_research_location := Ev.ok (H := H) (Shows.int (H := H) t.location_id)
    have h_research_time := Ev.ok (H := H) (Shows.int (H := H) t.research_time)
    have h_button_id := Ev.ok (H := H) (Shows.int (H := H) t.button_id)
    have h_hot_key := Ev.ok (H := H) (Shows.int (H := H) t.hot_key_id)
    exact congrArg joinB (
    parts_cons (W.int16Array_eq (h.at (Tech.distinct x) 0 rfl).tuple) <|
    parts_cons (W.classArray_eq (f := ResearchResourceCost.object) (h.at (Tech.distinct x) 1 rfl).tuple (by intro _ e; cases e) (fun _ m _ s => ResearchResourceCost.written (by omega) _ _ s)) <|
    parts_cons (W.int16_eq (h.at (Tech.distinct x) 2 rfl)) <|
    parts_cons (W.int16_eq (h.at (Tech.distinct x) 3 rfl)) <|
    parts_cons (W.int16_eq (h.at (Tech.distinct x) 4 rfl)) <|
    parts_cons (W.int16_eq h_research_location) <|
    parts_cons (W.int32_eq (h.at (Tech.distinct x) 5 rfl)) <|
    parts_cons (W.int32_eq (h.at (Tech.distinct x) 6 rfl)) <|
    parts_cons (W.int16_eq h_research_time) <|
    parts_cons (W.int16_eq (h.at (Tech.distinct x) 7 rfl)) <|
    parts_cons (W.int16_eq (h.at (Tech.distinct x) 8 rfl)) <|
    parts_cons (W.int16_eq (h.at (Tech.distinct x) 9 rfl)) <|
    parts_cons (W.int8_eq h_button_id) <|
    parts_cons (W.int32_eq (h.at (Tech.distinct x) 10 rfl)) <|
    parts_cons (W.int32_eq (h.at (Tech.distinct x) 11 rfl)) <|
    parts_cons (W.int32_eq h_hot_key) <|
    parts_cons (W.debugString_eq (h.at (Tech.distinct x) 12 rfl)) <|
    parts_cons (W.int8_eq (h.at (Tech.distinct x) 13 rfl)) <| rfl)

theorem Tech.write88_eq {H : Heap} {n : Nat} {ver : Version} (hn : 1 ≤ n) (x : Tech) {v : HVal} (h : Shows H v (Tech.object x)) :
    Tech.write88 H (W.toBytes H n) v ver = Tech.toBytes88 ver x := by
  unfold Tech.write88 Tech.toBytes88
  exact congrArg joinB (
    parts_cons (W.int16Array_eq (h.at (Tech.distinct x) 0 rfl).tuple) <|
    parts_cons (W.classArray_eq (f := ResearchResourceCost.object) (h.at (Tech.distinct x) 1 rfl).tuple (by intro _ e; cases e) (fun _ m _ s => ResearchResourceCost.written (by omega) _ _ s)) <|
    parts_cons (W.int16_eq (h.at (Tech.distinct x) 2 rfl)) <|
    parts_cons (W.int16_eq (h.at (Tech.distinct x) 3 rfl)) <|
    parts_cons (W.int16_eq (h.at (Tech.distinct x) 4 rfl)) <|
    parts_cons (W.int32_eq (h.at (Tech.distinct x) 5 rfl)) <|
    parts_cons (W.int32_eq (h.at (Tech.distinct x) 6 rfl)) <|
    parts_cons (W.int16_eq (h.at (Tech.distinct x) 7 rfl)) <|
    parts_cons (W.int16_eq (h.at (Tech.distinct x) 8 rfl)) <|
    parts_cons (W.int16_eq (h.at (Tech.distinct x) 9 rfl)) <|
    parts_cons (W.int32_eq (h.at (Tech.distinct x) 10 rfl)) <|
    parts_cons (W.int32_eq (h.at (Tech.distinct x) 11 rfl)) <|
    parts_cons (W.debugString_eq (h.at (Tech.distinct x) 12 rfl)) <|
    parts_cons (W.int8_eq (h.at (Tech.distinct x) 13 rfl)) <|
    parts_cons (W.int16_eq (h.at (Tech.distinct x) 14 rfl).list.nat) <|
    parts_cons (W.classArray_eq (f := ResearchLocation.object) (h.at (Tech.distinct x) 14 rfl).list (by intro _ e; cases e) (fun _ m _ s => ResearchLocation.written (by omega) _ _ s)) <| rfl)

theorem Tech.write_eq {H : Heap} {n : Nat} {ver : Version} (hn : 1 ≤ n) (x : Tech) {v : HVal} (h : Shows H v (Tech.object x)) :
    Tech.write H (W.toBytes H n) v ver = Tech.toBytes ver x := by
  unfold Tech.write Tech.toBytes
  split
  · exact Tech.write88_eq hn x h
  exact Tech.write84_eq hn x h

theorem Tech.written {H : Heap} {n : Nat} {ver : Version} (hn : 2 ≤ n) (x : Tech) (v : HVal) (h : Shows H v (Tech.object x)) :
    W.toBytes H n v ver = Tech.toBytes ver x := by
  obtain ⟨m, rfl⟩ : ∃ m, n = m + 1 := ⟨n - 1, by omega⟩
  rw [Shows.dispatch (m := Tech.write) h (by rfl)]
  exact Tech.write_eq (by omega) x h

theorem Common.distinct (x : Common) : ((Common.object x).attrsOf.map fun p => PyStr.hash p.1).Nodup := by
  have e : ([lit "slots_used", lit "unit_research", lit "mode"] : List PyStr).map PyStr.hash = [11734670609026383949770, 26432072483052062599411371295, 2308459438] := by
    decide +kernel
  have e' : ((Common.object x).attrsOf.map fun p => PyStr.hash p.1) = [11734670609026383949770, 26432072483052062599411371295, 2308459438] := e
  rw [e']
  decide +kernel

theorem Common.write_eq {H : Heap} {n : Nat} {ver : Version} (hn : 0 ≤ n) (x : Common) {v : HVal} (h : Shows H v (Common.object x)) :
    Common.write H (W.toBytes H n) v ver = Common.toBytes ver x := by
  unfold Common.write Common.toBytes
  exact congrArg joinB (
    parts_cons (W.int32_eq (h.at (Common.distinct x) 0 rfl)) <|
    parts_cons (W.int32Array_eq (h.at (Common.distinct x) 1 rfl).tuple) <|
    parts_cons (W.int32Array_eq (h.at (Common.distinct x) 2 rfl).tuple) <| rfl)

theorem Common.written {H : Heap} {n : Nat} {ver : Version} (hn : 1 ≤ n) (x : Common) (v : HVal) (h : Shows H v (Common.object x)) :
    W.toBytes H n v ver = Common.toBytes ver x := by
  obtain ⟨m, rfl⟩ : ∃ m, n = m + 1 := ⟨n - 1, by omega⟩
  rw [Shows.dispatch (m := Common.write) h (by rfl)]
  exact Common.write_eq (by omega) x h

theorem TechTreeAge.distinct (x : TechTreeAge) : ((TechTreeAge.object x).attrsOf.map fun p => PyStr.hash p.1).Nodup := by
  have e : ([lit "id", lit "status", lit "buildings", lit "units", lit "techs", lit "common", lit "num_building_levels", lit "buildings_per_zone", lit "group_length_per_zone", lit "max_age_length", lit "line_mode"] : List PyStr).map PyStr.hash = [133982, 39848415381613, 88109152704956704288, 304762025540, 304447188262, 39229697903766, 132688714534705555166123308909958412168010, 1001065941147325391589541704906864999749, 2261513715689576635368350785580261142350321332, 3435504286314317251025964341236, 88968534986229760327] := by
    decide +kernel
  have e' : ((TechTreeAge.object x).attrsOf.map fun p => PyStr.hash p.1) = [133982, 39848415381613, 88109152704956704288, 304762025540, 304447188262, 39229697903766, 132688714534705555166123308909958412168010, 1001065941147325391589541704906864999749, 2261513715689576635368350785580261142350321332, 3435504286314317251025964341236, 88968534986229760327] := e
  rw [e']
  decide +kernel

theorem TechTreeAge.write_eq {H : Heap} {n : Nat} {ver : Version} (hn : 1 ≤ n) (x : TechTreeAge) {v : HVal} (h : Shows H v (TechTreeAge.object x)) :
    TechTreeAge.write H (W.toBytes H n) v ver = TechTreeAge.toBytes ver x := by
  unfold TechTreeAge.write TechTreeAge.toBytes
  exact congrArg joinB (
    parts_cons (W.int32_eq (h.at (TechTreeAge.distinct x) 0 rfl)) <|
    parts_cons (W.int8_eq (h.at (TechTreeAge.distinct x) 1 rfl)) <|
    parts_cons (W.int8_eq (h.at (TechTreeAge.distinct x) 2 rfl).list.nat) <|
    parts_cons (W.int32Array_eq (h.at (TechTreeAge.distinct x) 2 rfl).list) <|
    parts_cons (W.int8_eq (h.at (TechTreeAge.distinct x) 3 rfl).list.nat) <|
    parts_cons (W.int32Array_eq (h.at (TechTreeAge.distinct x) 3 rfl).list) <|
    parts_cons (W.int8_eq (h.at (TechTreeAge.distinct x) 4 rfl).list.nat) <|
    parts_cons (W.int32Array_eq (h.at (TechTreeAge.distinct x) 4 rfl).list) <|
    parts_cons (W.cls_eq (f := Common.object) (h.at (TechTreeAge.distinct x) 5 rfl) (fun _ s => Common.written (by omega) _ _ s)) <|
    parts_cons (W.int8_eq (h.at (TechTreeAge.distinct x) 6 rfl)) <|
    parts_cons (W.int8Array_eq (h.at (TechTreeAge.distinct x) 7 rfl).tuple) <|
    parts_cons (W.int8Array_eq (h.at (TechTreeAge.distinct x) 8 rfl).tuple) <|
    parts_cons (W.int8_eq (h.at (TechTreeAge.distinct x) 9 rfl)) <|
    parts_cons (W.int32_eq (h.at (TechTreeAge.distinct x) 10 rfl)) <| rfl)

theorem TechTreeAge.written {H : Heap} {n : Nat} {ver : Version} (hn : 2 ≤ n) (x : TechTreeAge) (v : HVal) (h : Shows H v (TechTreeAge.object x)) :
    W.toBytes H n v ver = TechTreeAge.toBytes ver x := by
  obtain ⟨m, rfl⟩ : ∃ m, n = m + 1 := ⟨n - 1, by omega⟩
  rw [Shows.dispatch (m := TechTreeAge.write) h (by rfl)]
  exact TechTreeAge.write_eq (by omega) x h

theorem BuildingConnection.distinct (x : BuildingConnection) : ((BuildingConnection.object x).attrsOf.map fun p => PyStr.hash p.1).Nodup := by
  have e : ([lit "id", lit "status", lit "buildings", lit "units", lit "techs", lit "common", lit "location_in_age", lit "units_techs_total", lit "units_techs_first", lit "line_mode", lit "enabling_research"] : List PyStr).map PyStr.hash = [133982, 39848415381613, 88109152704956704288, 304762025540, 304447188262, 39229697903766, 449659042725135721693031469452420, 7784243258632264631828650525742024763, 7784243258632264631828650521605505367, 88968534986229760327, 7663885640511559361833094845475832659] := by
    decide +kernel
  have e' : ((BuildingConnection.object x).attrsOf.map fun p => PyStr.hash p.1) = [133982, 39848415381613, 88109152704956704288, 304762025540, 304447188262, 39229697903766, 449659042725135721693031469452420, 7784243258632264631828650525742024763, 7784243258632264631828650521605505367, 88968534986229760327, 7663885640511559361833094845475832659] := e
  rw [e']
  decide +kernel

theorem BuildingConnection.write_eq {H : Heap} {n : Nat} {ver : Version} (hn : 1 ≤ n) (x : BuildingConnection) {v : HVal} (h : Shows H v (BuildingConnection.object x)) :
    BuildingConnection.write H (W.toBytes H n) v ver = BuildingConnection.toBytes ver x := by
  unfold BuildingConnection.write BuildingConnection.toBytes
  exact congrArg joinB (
    parts_cons (W.int32_eq (h.at (BuildingConnection.distinct x) 0 rfl)) <|
    parts_cons (W.int8_eq (h.at (BuildingConnection.distinct x) 1 rfl)) <|
    parts_cons (W.int8_eq (h.at (BuildingConnection.distinct x) 2 rfl).list.nat) <|
    parts_cons (W.int32Array_eq (h.at (BuildingConnection.distinct x) 2 rfl).list) <|
    parts_cons (W.int8_eq (h.at (BuildingConnection.distinct x) 3 rfl).list.nat) <|
    parts_cons (W.int32Array_eq (h.at (BuildingConnection.distinct x) 3 rfl).list) <|
    parts_cons (W.int8_eq (h.at (BuildingConnection.distinct x) 4 rfl).list.nat) <|
    parts_cons (W.int32Array_eq (h.at (BuildingConnection.distinct x) 4 rfl).list) <|
    parts_cons (W.cls_eq (f := Common.object) (h.at (BuildingConnection.distinct x) 5 rfl) (fun _ s => Common.written (by omega) _ _ s)) <|
    parts_cons (W.int8_eq (h.at (BuildingConnection.distinct x) 6 rfl)) <|
    parts_cons (W.int8Array_eq (h.at (BuildingConnection.distinct x) 7 rfl).tuple) <|
    parts_cons (W.int8Array_eq (h.at (BuildingConnection.distinct x) 8 rfl).tuple) <|
    parts_cons (W.int32_eq (h.at (BuildingConnection.distinct x) 9 rfl)) <|
    parts_cons (W.int32_eq (h.at (BuildingConnection.distinct x) 10 rfl)) <| rfl)

theorem BuildingConnection.written {H : Heap} {n : Nat} {ver : Version} (hn : 2 ≤ n) (x : BuildingConnection) (v : HVal) (h : Shows H v (BuildingConnection.object x)) :
    W.toBytes H n v ver = BuildingConnection.toBytes ver x := by
  obtain ⟨m, rfl⟩ : ∃ m, n = m + 1 := ⟨n - 1, by omega⟩
  rw [Shows.dispatch (m := BuildingConnection.write) h (by rfl)]
  exact BuildingConnection.write_eq (by omega) x h

theorem UnitConnection.distinct (x : UnitConnection) : ((UnitConnection.object x).attrsOf.map fun p => PyStr.hash p.1).Nodup := by
  have e : ([lit "id", lit "status", lit "upper_building", lit "common", lit "vertical_line", lit "units", lit "location_in_age", lit "required_research", lit "line_mode", lit "enabling_research"] : List PyStr).map PyStr.hash = [133982, 39848415381613, 3462653922086255301614391567784, 39229697903766, 26455873120863923480405393114, 304762025540, 449659042725135721693031469452420, 7761163596327370220379904580632813692, 88968534986229760327, 7663885640511559361833094845475832659] := by
    decide +kernel
  have e' : ((UnitConnection.object x).attrsOf.map fun p => PyStr.hash p.1) = [133982, 39848415381613, 3462653922086255301614391567784, 39229697903766, 26455873120863923480405393114, 304762025540, 449659042725135721693031469452420, 7761163596327370220379904580632813692, 88968534986229760327, 7663885640511559361833094845475832659] := e
  rw [e']
  decide +kernel

theorem UnitConnection.write_eq {H : Heap} {n : Nat} {ver : Version} (hn : 1 ≤ n) (x : UnitConnection) {v : HVal} (h : Shows H v (UnitConnection.object x)) :
    UnitConnection.write H (W.toBytes H n) v ver = UnitConnection.toBytes ver x := by
  unfold UnitConnection.write UnitConnection.toBytes
  exact congrArg joinB (
    parts_cons (W.int32_eq (h.at (UnitConnection.distinct x) 0 rfl)) <|
    parts_cons (W.int8_eq (h.at (UnitConnection.distinct x) 1 rfl)) <|
    parts_cons (W.int32_eq (h.at (UnitConnection.distinct x) 2 rfl)) <|
    parts_cons (W.cls_eq (f := Common.object) (h.at (UnitConnection.distinct x) 3 rfl) (fun _ s => Common.written (by omega) _ _ s)) <|
    parts_cons (W.int32_eq (h.at (UnitConnection.distinct x) 4 rfl)) <|
    parts_cons (W.int8_eq (h.at (UnitConnection.distinct x) 5 rfl).list.nat) <|
    parts_cons (W.int32Array_eq (h.at (UnitConnection.distinct x) 5 rfl).list) <|
    parts_cons (W.int32_eq (h.at (UnitConnection.distinct x) 6 rfl)) <|
    parts_cons (W.int32_eq (h.at (UnitConnection.distinct x) 7 rfl)) <|
    parts_cons (W.int32_eq (h.at (UnitConnection.distinct x) 8 rfl)) <|
    parts_cons (W.int32_eq (h.at (UnitConnection.distinct x) 9 rfl)) <| rfl)

theorem UnitConnection.written {H : Heap} {n : Nat} {ver : Version} (hn : 2 ≤ n) (x : UnitConnection) (v : HVal) (h : Shows H v (UnitConnection.object x)) :
    W.toBytes H n v ver = UnitConnection.toBytes ver x := by
  obtain ⟨m, rfl⟩ : ∃ m, n = m + 1 := ⟨n - 1, by omega⟩
  rw [Shows.dispatch (m := UnitConnection.write) h (by rfl)]
  exact UnitConnection.write_eq (by omega) x h

theorem ResearchConnection.distinct (x : ResearchConnection) : ((ResearchConnection.object x).attrsOf.map fun p => PyStr.hash p.1).Nodup := by
  have e : ([lit "id", lit "status", lit "upper_building", lit "buildings", lit "units", lit "techs", lit "common", lit "vertical_line", lit "location_in_age", lit "line_mode"] : List PyStr).map PyStr.hash = [133982, 39848415381613, 3462653922086255301614391567784, 88109152704956704288, 304762025540, 304447188262, 39229697903766, 26455873120863923480405393114, 449659042725135721693031469452420, 88968534986229760327] := by
    decide +kernel
  have e' : ((ResearchConnection.object x).attrsOf.map fun p => PyStr.hash p.1) = [133982, 39848415381613, 3462653922086255301614391567784, 88109152704956704288, 304762025540, 304447188262, 39229697903766, 26455873120863923480405393114, 449659042725135721693031469452420, 88968534986229760327] := e
  rw [e']
  decide +kernel

theorem ResearchConnection.write_eq {H : Heap} {n : Nat} {ver : Version} (hn : 1 ≤ n) (x : ResearchConnection) {v : HVal} (h : Shows H v (ResearchConnection.object x)) :
    ResearchConnection.write H (W.toBytes H n) v ver = ResearchConnection.toBytes ver x := by
  unfold ResearchConnection.write ResearchConnection.toBytes
  exact congrArg joinB (
    parts_cons (W.int32_eq (h.at (ResearchConnection.distinct x) 0 rfl)) <|
    parts_cons (W.int8_eq (h.at (ResearchConnection.distinct x) 1 rfl)) <|
    parts_cons (W.int32_eq (h.at (ResearchConnection.distinct x) 2 rfl)) <|
    parts_cons (W.int8_eq (h.at (ResearchConnection.distinct x) 3 rfl).list.nat) <|
    parts_cons (W.int32Array_eq (h.at (ResearchConnection.distinct x) 3 rfl).list) <|
    parts_cons (W.int8_eq (h.at (ResearchConnection.distinct x) 4 rfl).list.nat) <|
    parts_cons (W.int32Array_eq (h.at (ResearchConnection.distinct x) 4 rfl).list) <|
    parts_cons (W.int8_eq (h.at (ResearchConnection.distinct x) 5 rfl).list.nat) <|
    parts_cons (W.int32Array_eq (h.at (ResearchConnection.distinct x) 5 rfl).list) <|
    parts_cons (W.cls_eq (f := Common.object) (h.at (ResearchConnection.distinct x) 6 rfl) (fun _ s => Common.written (by omega) _ _ s)) <|
    parts_cons (W.int32_eq (h.at (ResearchConnection.distinct x) 7 rfl)) <|
    parts_cons (W.int32_eq (h.at (ResearchConnection.distinct x) 8 rfl)) <|
    parts_cons (W.int32_eq (h.at (ResearchConnection.distinct x) 9 rfl)) <| rfl)

theorem ResearchConnection.written {H : Heap} {n : Nat} {ver : Version} (hn : 2 ≤ n) (x : ResearchConnection) (v : HVal) (h : Shows H v (ResearchConnection.object x)) :
    W.toBytes H n v ver = ResearchConnection.toBytes ver x := by
  obtain ⟨m, rfl⟩ : ∃ m, n = m + 1 := ⟨n - 1, by omega⟩
  rw [Shows.dispatch (m := ResearchConnection.write) h (by rfl)]
  exact ResearchConnection.write_eq (by omega) x h

theorem TechTree.distinct (x : TechTree) : ((TechTree.object x).attrsOf.map fun p => PyStr.hash p.1).Nodup := by
  have e : ([lit "total_unit_tech_groups", lit "tech_tree_ages", lit "building_connections", lit "unit_connections", lit "research_connections"] : List PyStr).map PyStr.hash = [300024331191783841040420806975593209307704595340, 3459024422225347778209630981975, 17179292616029251041174520325353166444065525, 59421704260474781994741067485571137, 17447803880415356517687258163331799723517644] := by
    decide +kernel
  have e' : ((TechTree.object x).attrsOf.map fun p => PyStr.hash p.1) = [300024331191783841040420806975593209307704595340, 3459024422225347778209630981975, 17179292616029251041174520325353166444065525, 59421704260474781994741067485571137, 17447803880415356517687258163331799723517644] := e
  rw [e']
  decide +kernel

theorem TechTree.write_eq {H : Heap} {n : Nat} {ver : Version} (hn : 2 ≤ n) (x : TechTree) {v : HVal} (h : Shows H v (TechTree.object x)) :
    TechTree.write H (W.toBytes H n) v ver = TechTree.toBytes ver x := by
  unfold TechTree.write TechTree.toBytes
  exact congrArg joinB (
    parts_cons (W.int8_eq (h.at (TechTree.distinct x) 1 rfl).list.nat) <|
    parts_cons (W.int8_eq (h.at (TechTree.distinct x) 2 rfl).list.nat) <|
    parts_cons (W.int8_eq (h.at (TechTree.distinct x) 3 rfl).list.nat) <|
    parts_cons (W.int8_eq (h.at (TechTree.distinct x) 4 rfl).list.nat) <|
    parts_cons (W.int32_eq (h.at (TechTree.distinct x) 0 rfl)) <|
    parts_cons (W.classArray_eq (f := TechTreeAge.object) (h.at (TechTree.distinct x) 1 rfl).list (by intro _ e; cases e) (fun _ m _ s => TechTreeAge.written (by omega) _ _ s)) <|
    parts_cons (W.classArray_eq (f := BuildingConnection.object) (h.at (TechTree.distinct x) 2 rfl).list (by intro _ e; cases e) (fun _ m _ s => BuildingConnection.written (by omega) _ _ s)) <|
    parts_cons (W.classArray_eq (f := UnitConnection.object) (h.at (TechTree.distinct x) 3 rfl).list (by intro _ e; cases e) (fun _ m _ s => UnitConnection.written (by omega) _ _ s)) <|
    parts_cons (W.classArray_eq (f := ResearchConnection.object) (h.at (TechTree.distinct x) 4 rfl).list (by intro _ e; cases e) (fun _ m _ s => ResearchConnection.written (by omega) _ _ s)) <| rfl)

theorem TechTree.written {H : Heap} {n : Nat} {ver : Version} (hn : 3 ≤ n) (x : TechTree) (v : HVal) (h : Shows H v (TechTree.object x)) :
    W.toBytes H n v ver = TechTree.toBytes ver x := by
  obtain ⟨m, rfl⟩ : ∃ m, n = m + 1 := ⟨n - 1, by omega⟩
  rw [Shows.dispatch (m := TechTree.write) h (by rfl)]
  exact TechTree.write_eq (by omega) x h

theorem Task.distinct (x : Task) : ((Task.object x).attrsOf.map fun p => PyStr.hash p.1).Nodup := by
  have e : ([lit "task_type", lit "id", lit "is_default", lit "action_type", lit "class_id", lit "unit_id", lit "terrain_id", lit "resource_in", lit "resource_multiplier", lit "resource_out", lit "unused_resource", lit "work_value_1", lit "work_value_2", lit "work_range", lit "auto_search_targets", lit "search_wait_time", lit "enable_targeting", lit "combat_level_flag", lit "gather_type", lit "work_flag_2", lit "target_diplomacy", lit "carry_check", lit "pick_for_construction", lit "moving_graphic_id", lit "proceeding_graphic_id", lit "working_graphic_id", lit "carrying_graphic_id", lit "resource_gathering_sound_id", lit "resource_deposit_sound_id", lit "wwise_resource_gathering_sound_id", lit "wwise_resource_deposit_sound_id", lit "enabled"] : List PyStr).map PyStr.hash = [89657105614065172897, 133982, 11621650479503611814043, 1510349234830082316713960, 673205222808968001, 5230021119962575, 11745427129645078243684, 1535674284785479873133859, 133189343181565304556961369754188306765759, 201173331306897863380639528, 453601102199906573551461600731924, 202163090303226682695057528, 202163090303226682695057529, 11780379366191158300798, 131010633961880453401167172506411781559480, 59302890848070753234614866903365655, 58502943820692803622086931230545432, 7648904064594059480827577427689916943, 1519256772934715698304607, 1543229696970581993801938, 59358614967880338255386097367119461, 1513303098108354918152957, 2281297358232341255256246835034996941950954590, 7724129315225610209695289078839381492, 2281451093299364056706836668184950605509685842, 1021714699405200989583836042647786099795, 131249085609248876413336948872660964326059, 11551538834040457908820946266988602275838942827003231261905, 673127372183465876628286226475894460517853834139147542, 58671127821551862646061827103703058370604680903624551153091812300131169, 3418864158356264940624778690268810409898621591176834630843917660966, 5149156113411642] := by
    decide +kernel
  have e' : ((Task.object x).attrsOf.map fun p => PyStr.hash p.1) = [89657105614065172897, 133982, 11621650479503611814043, 1510349234830082316713960, 673205222808968001, 5230021119962575, 11745427129645078243684, 1535674284785479873133859, 133189343181565304556961369754188306765759, 201173331306897863380639528, 453601102199906573551461600731924, 202163090303226682695057528, 202163090303226682695057529, 11780379366191158300798, 131010633961880453401167172506411781559480, 59302890848070753234614866903365655, 58502943820692803622086931230545432, 7648904064594059480827577427689916943, 1519256772934715698304607, 1543229696970581993801938, 59358614967880338255386097367119461, 1513303098108354918152957, 2281297358232341255256246835034996941950954590, 7724129315225610209695289078839381492, 2281451093299364056706836668184950605509685842, 1021714699405200989583836042647786099795, 131249085609248876413336948872660964326059, 11551538834040457908820946266988602275838942827003231261905, 673127372183465876628286226475894460517853834139147542, 58671127821551862646061827103703058370604680903624551153091812300131169, 3418864158356264940624778690268810409898621591176834630843917660966, 5149156113411642] := e
  rw [e']
  decide +kernel

theorem Task.write84_eq {H : Heap} {n : Nat} {ver : Version} (hn : 0 ≤ n) (x : Task) {v : HVal} (h : Shows H v (Task.object x)) :
    Task.write84 H (W.toBytes H n) v ver = Task.toBytes84 ver x := by
  unfold Task.write84 Task.toBytes84
  exact W.pack_eq (by decide +kernel) (.argInt (c := .h) (h.at (Task.distinct x) 0 rfl) (.argInt (c := .h) (h.at (Task.distinct x) 1 rfl) (.argInt (c := .b) (h.at (Task.distinct x) 2 rfl) (.argInt (c := .h) (h.at (Task.distinct x) 3 rfl) (.argInt (c := .h) (h.at (Task.distinct x) 4 rfl) (.argInt (c := .h) (h.at (Task.distinct x) 5 rfl) (.argInt (c := .h) (h.at (Task.distinct x) 6 rfl) (.argInt (c := .h) (h.at (Task.distinct x) 7 rfl) (.argInt (c := .h) (h.at (Task.distinct x) 8 rfl) (.argInt (c := .h) (h.at (Task.distinct x) 9 rfl) (.argInt (c := .h) (h.at (Task.distinct x) 10 rfl) (.argFloat (h.at (Task.distinct x) 11 rfl) (.argFloat (h.at (Task.distinct x) 12 rfl) (.argFloat (h.at (Task.distinct x) 13 rfl) (.argInt (c := .b) (h.at (Task.distinct x) 14 rfl) (.argFloat (h.at (Task.distinct x) 15 rfl) (.argInt (c := .b) (h.at (Task.distinct x) 16 rfl) (.argInt (c := .b) (h.at (Task.distinct x) 17 rfl) (.argInt (c := .h) (h.at (Task.distinct x) 18 rfl) (.argInt (c := .h) (h.at (Task.distinct x) 19 rfl) (.argInt (c := .b) (h.at (Task.distinct x) 20 rfl) (.argInt (c := .b) (h.at (Task.distinct x) 21 rfl) (.argInt (c := .b) (h.at (Task.distinct x) 22 rfl) (.argInt (c := .h) (h.at (Task.distinct x) 23 rfl) (.argInt (c := .h) (h.at (Task.distinct x) 24 rfl) (.argInt (c := .h) (h.at (Task.distinct x) 25 rfl) (.argInt (c := .h) (h.at (Task.distinct x) 26 rfl) (.argInt (c := .h) (h.at (Task.distinct x) 27 rfl) (.argInt (c := .h) (h.at (Task.distinct x) 28 rfl) (.argInt (c := .l) (h.at (Task.distinct x) 29 rfl) (.argInt (c := .l) (h.at (Task.distinct x) 30 rfl) .nil)))))))))))))))))))))))))))))))

theorem Task.write88_eq {H : Heap} {n : Nat} {ver : Version} (hn : 0 ≤ n) (x : Task) {v : HVal} (h : Shows H v (Task.object x)) :
    Task.write88 H (W.toBytes H n) v ver = Task.toBytes88 ver x := by
  unfold Task.write88 Task.toBytes88
  exact W.pack_eq (by decide +kernel) (.argInt (c := .h) (h.at (Task.distinct x) 0 rfl) (.argInt (c := .h) (h.at (Task.distinct x) 1 rfl) (.argInt (c := .b) (h.at (Task.distinct x) 2 rfl) (.argInt (c := .h) (h.at (Task.distinct x) 3 rfl) (.argInt (c := .h) (h.at (Task.distinct x) 4 rfl) (.argInt (c := .h) (h.at (Task.distinct x) 5 rfl) (.argInt (c := .h) (h.at (Task.distinct x) 6 rfl) (.argInt (c := .h) (h.at (Task.distinct x) 7 rfl) (.argInt (c := .h) (h.at (Task.distinct x) 8 rfl) (.argInt (c := .h) (h.at (Task.distinct x) 9 rfl) (.argInt (c := .h) (h.at (Task.distinct x) 10 rfl) (.argFloat (h.at (Task.distinct x) 11 rfl) (.argFloat (h.at (Task.distinct x) 12 rfl) (.argFloat (h.at (Task.distinct x) 13 rfl) (.argInt (c := .b) (h.at (Task.distinct x) 14 rfl) (.argFloat (h.at (Task.distinct x) 15 rfl) (.argInt (c := .b) (h.at (Task.distinct x) 16 rfl) (.argInt (c := .b) (h.at (Task.distinct x) 17 rfl) (.argInt (c := .h) (h.at (Task.distinct x) 18 rfl) (.argInt (c := .h) (h.at (Task.distinct x) 19 rfl) (.argInt (c := .b) (h.at (Task.distinct x) 20 rfl) (.argInt (c := .b) (h.at (Task.distinct x) 21 rfl) (.argInt (c := .b) (h.at (Task.distinct x) 22 rfl) (.argInt (c := .h) (h.at (Task.distinct x) 23 rfl) (.argInt (c := .h) (h.at (Task.distinct x) 24 rfl) (.argInt (c := .h) (h.at (Task.distinct x) 25 rfl) (.argInt (c := .h) (h.at (Task.distinct x) 26 rfl) (.argInt (c := .h) (h.at (Task.distinct x) 27 rfl) (.argInt (c := .h) (h.at (Task.distinct x) 28 rfl) (.argInt (c := .l) (h.at (Task.distinct x) 29 rfl) (.argInt (c := .l) (h.at (Task.distinct x) 30 rfl) (.argInt (c := .h) (h.at (Task.distinct x) 31 rfl) .nil))))))))))))))))))))))))))))))))

theorem Task.write_eq {H : Heap} {n : Nat} {ver : Version} (hn : 0 ≤ n) (x : Task) {v : HVal} (h : Shows H v (Task.object x)) :
    Task.write H (W.toBytes H n) v ver = Task.toBytes ver x := by
  unfold Task.write Task.toBytes
  split
  · exact Task.write88_eq hn x h
  exact Task.write84_eq hn x h

theorem Task.written {H : Heap} {n : Nat} {ver : Version} (hn : 1 ≤ n) (x : Task) (v : HVal) (h : Shows H v (Task.object x)) :
    W.toBytes H n v ver = Task.toBytes ver x := by
  obtain ⟨m, rfl⟩ : ∃ m, n = m + 1 := ⟨n - 1, by omega⟩
  rw [Shows.dispatch (m := Task.write) h (by rfl)]
  exact Task.write_eq (by omega) x h

theorem ResourceStorage.distinct (x : ResourceStorage) : ((ResourceStorage.object x).attrsOf.map fun p => PyStr.hash p.1).Nodup := by
  have e : ([lit "type", lit "amount", lit "flag"] : List PyStr).map PyStr.hash = [2324369257, 39151954557967, 2292670927] := by
    decide +kernel
  have e' : ((ResourceStorage.object x).attrsOf.map fun p => PyStr.hash p.1) = [2324369257, 39151954557967, 2292670927] := e
  rw [e']
  decide +kernel

theorem ResourceStorage.write_eq {H : Heap} {n : Nat} {ver : Version} (hn : 0 ≤ n) (x : ResourceStorage) {v : HVal} (h : Shows H v (ResourceStorage.object x)) :
    ResourceStorage.write H (W.toBytes H n) v ver = ResourceStorage.toBytes ver x := by
  unfold ResourceStorage.write ResourceStorage.toBytes
  exact W.pack_eq (by decide +kernel) (.argInt (c := .h) (h.at (ResourceStorage.distinct x) 0 rfl) (.argFloat (h.at (ResourceStorage.distinct x) 1 rfl) (.argInt (c := .b) (h.at (ResourceStorage.distinct x) 2 rfl) .nil)))

theorem ResourceStorage.written {H : Heap} {n : Nat} {ver : Version} (hn : 1 ≤ n) (x : ResourceStorage) (v : HVal) (h : Shows H v (ResourceStorage.object x)) :
    W.toBytes H n v ver = ResourceStorage.toBytes ver x := by
  obtain ⟨m, rfl⟩ : ∃ m, n = m + 1 := ⟨n - 1, by omega⟩
  rw [Shows.dispatch (m := ResourceStorage.write) h (by rfl)]
  exact ResourceStorage.write_eq (by omega) x h

theorem DamageGraphic.distinct (x : DamageGraphic) : ((DamageGraphic.object x).attrsOf.map fun p => PyStr.hash p.1).Nodup := by
  have e : ([lit "graphic_id", lit "damage_percent", lit "apply_mode"] : List PyStr).map PyStr.hash = [11598841820880090792601, 3405388081723320716859408890752, 11530508331923118889423] := by
    decide +kernel
  have e' : ((DamageGraphic.object x).attrsOf.map fun p => PyStr.hash p.1) = [11598841820880090792601, 3405388081723320716859408890752, 11530508331923118889423] := e
  rw [e']
  decide +kernel

theorem DamageGraphic.write_eq {H : Heap} {n : Nat} {ver : Version} (hn : 0 ≤ n) (x : DamageGraphic) {v : HVal} (h : Shows H v (DamageGraphic.object x)) :
    DamageGraphic.write H (W.toBytes H n) v ver = DamageGraphic.toBytes ver x := by
  unfold DamageGraphic.write DamageGraphic.toBytes
  exact W.pack_eq (by decide +kernel) (.argInt (c := .h) (h.at (DamageGraphic.distinct x) 0 rfl) (.argInt (c := .h) (h.at (DamageGraphic.distinct x) 1 rfl) (.argInt (c := .b) (h.at (DamageGraphic.distinct x) 2 rfl) .nil)))

theorem DamageGraphic.written {H : Heap} {n : Nat} {ver : Version} (hn : 1 ≤ n) (x : DamageGraphic) (v : HVal) (h : Shows H v (DamageGraphic.object x)) :
    W.toBytes H n v ver = DamageGraphic.toBytes ver x := by
  obtain ⟨m, rfl⟩ : ∃ m, n = m + 1 := ⟨n - 1, by omega⟩
  rw [Shows.dispatch (m := DamageGraphic.write) h (by rfl)]
  exact DamageGraphic.write_eq (by omega) x h

theorem DeadFish.distinct (x : DeadFish) : ((DeadFish.object x).attrsOf.map fun p => PyStr.hash p.1).Nodup := by
  have e : ([lit "walking_graphic", lit "running_graphic", lit "rotation_speed", lit "old_size_class", lit "tracking_unit", lit "tracking_unit_mode", lit "tracking_unit_density", lit "old_move_algorithm", lit "turn_radius", lit "turn_radius_speed", lit "max_yaw_per_second_moving", lit "stationary_yaw_revolution_time", lit "max_yaw_per_second_stationary", lit "min_collision_size_multiplier"] : List PyStr).map PyStr.hash = [454434026507615882269231093948855, 452309363739776543567848733919785, 3452591133066350900465655670001, 3442473363364310127566025069873, 26407298255412025622493279701, 1018780089755538597243926317070002326837, 2290310350758618520616695558068172732906412834, 1013808133535470057183411201897001655372, 1538832737831961371262617, 7777127000578867636855188776635183921, 669845658606269582015967842077498378314516287568824309, 25996935195064691317721871885605287845496357650496305192780085603, 197269493541739362008405550230363748291253228431975072739507075, 197281114729198907374009470036436867357374420594346346870818886] := by
    decide +kernel
  have e' : ((DeadFish.object x).attrsOf.map fun p => PyStr.hash p.1) = [454434026507615882269231093948855, 452309363739776543567848733919785, 3452591133066350900465655670001, 3442473363364310127566025069873, 26407298255412025622493279701, 1018780089755538597243926317070002326837, 2290310350758618520616695558068172732906412834, 1013808133535470057183411201897001655372, 1538832737831961371262617, 7777127000578867636855188776635183921, 669845658606269582015967842077498378314516287568824309, 25996935195064691317721871885605287845496357650496305192780085603, 197269493541739362008405550230363748291253228431975072739507075, 197281114729198907374009470036436867357374420594346346870818886] := e
  rw [e']
  decide +kernel

theorem DeadFish.write_eq {H : Heap} {n : Nat} {ver : Version} (hn : 0 ≤ n) (x : DeadFish) {v : HVal} (h : Shows H v (DeadFish.object x)) :
    DeadFish.write H (W.toBytes H n) v ver = DeadFish.toBytes ver x := by
  unfold DeadFish.write DeadFish.toBytes
  exact W.pack_eq (by decide +kernel) (.argInt (c := .h) (h.at (DeadFish.distinct x) 0 rfl) (.argInt (c := .h) (h.at (DeadFish.distinct x) 1 rfl) (.argFloat (h.at (DeadFish.distinct x) 2 rfl) (.argInt (c := .b) (h.at (DeadFish.distinct x) 3 rfl) (.argInt (c := .h) (h.at (DeadFish.distinct x) 4 rfl) (.argInt (c := .b) (h.at (DeadFish.distinct x) 5 rfl) (.argFloat (h.at (DeadFish.distinct x) 6 rfl) (.argInt (c := .b) (h.at (DeadFish.distinct x) 7 rfl) (.argFloat (h.at (DeadFish.distinct x) 8 rfl) (.argFloat (h.at (DeadFish.distinct x) 9 rfl) (.argFloat (h.at (DeadFish.distinct x) 10 rfl) (.argFloat (h.at (DeadFish.distinct x) 11 rfl) (.argFloat (h.at (DeadFish.distinct x) 12 rfl) (.argFloat (h.at (DeadFish.distinct x) 13 rfl) .nil))))))))))))))

theorem DeadFish.written {H : Heap} {n : Nat} {ver : Version} (hn : 1 ≤ n) (x : DeadFish) (v : HVal) (h : Shows H v (DeadFish.object x)) :
    W.toBytes H n v ver = DeadFish.toBytes ver x := by
  obtain ⟨m, rfl⟩ : ∃ m, n = m + 1 := ⟨n - 1, by omega⟩
  rw [Shows.dispatch (m := DeadFish.write) h (by rfl)]
  exact DeadFish.write_eq (by omega) x h

theorem Bird.distinct (x : Bird) : ((Bird.object x).attrsOf.map fun p => PyStr.hash p.1).Nodup := by
  have e : ([lit "default_task_id", lit "search_radius", lit "work_rate", lit "drop_sites", lit "task_swap_group", lit "attack_sound", lit "move_sound", lit "wwise_attack_sound_id", lit "wwise_move_sound_id", lit "run_pattern", lit "tasks"] : List PyStr).map PyStr.hash = [446119043960355791012220311321508, 26379221681004351158800138470, 89926560047260751171, 11564766119449221392011, 453119224541102270265621153208322, 197881051470308679692073127, 11666765417574094956884, 2297041749797144438695756358820511460463504931, 133852441570837927972761690204556182849378, 1535855627022011238049509, 304438470867] := by
    decide +kernel
  have e' : ((Bird.object x).attrsOf.map fun p => PyStr.hash p.1) = [446119043960355791012220311321508, 26379221681004351158800138470, 89926560047260751171, 11564766119449221392011, 453119224541102270265621153208322, 197881051470308679692073127, 11666765417574094956884, 2297041749797144438695756358820511460463504931, 133852441570837927972761690204556182849378, 1535855627022011238049509, 304438470867] := e
  rw [e']
  decide +kernel

theorem Bird.write_eq {H : Heap} {n : Nat} {ver : Version} (hn : 1 ≤ n) (x : Bird) {v : HVal} (h : Shows H v (Bird.object x)) :
    Bird.write H (W.toBytes H n) v ver = Bird.toBytes ver x := by
  unfold Bird.write Bird.toBytes
  exact congrArg joinB (
    parts_cons (W.int16_eq (h.at (Bird.distinct x) 0 rfl)) <|
    parts_cons (W.float_eq (h.at (Bird.distinct x) 1 rfl)) <|
    parts_cons (W.float_eq (h.at (Bird.distinct x) 2 rfl)) <|
    parts_cons (W.int16If_eq (h.at (Bird.distinct x) 3 rfl).list.nat) <|
    parts_cons (W.int16Array_eq (h.at (Bird.distinct x) 3 rfl).list) <|
    parts_cons (W.int8_eq (h.at (Bird.distinct x) 4 rfl)) <|
    parts_cons (W.int16_eq (h.at (Bird.distinct x) 5 rfl)) <|
    parts_cons (W.int16_eq (h.at (Bird.distinct x) 6 rfl)) <|
    parts_cons (W.int32_eq (h.at (Bird.distinct x) 7 rfl)) <|
    parts_cons (W.int32_eq (h.at (Bird.distinct x) 8 rfl)) <|
    parts_cons (W.int8_eq (h.at (Bird.distinct x) 9 rfl)) <|
    parts_cons (W.int16_eq (h.at (Bird.distinct x) 10 rfl).list.nat) <|
    parts_cons (W.classArray_eq (f := Task.object) (h.at (Bird.distinct x) 10 rfl).list (by intro _ e; cases e) (fun _ m _ s => Task.written (by omega) _ _ s)) <| rfl)

theorem Bird.written {H : Heap} {n : Nat} {ver : Version} (hn : 2 ≤ n) (x : Bird) (v : HVal) (h : Shows H v (Bird.object x)) :
    W.toBytes H n v ver = Bird.toBytes ver x := by
  obtain ⟨m, rfl⟩ : ∃ m, n = m + 1 := ⟨n - 1, by omega⟩
  rw [Shows.dispatch (m := Bird.write) h (by rfl)]
  exact Bird.write_eq (by omega) x h

theorem AttackOrArmor.distinct (x : AttackOrArmor) : ((AttackOrArmor.object x).attrsOf.map fun p => PyStr.hash p.1).Nodup := by
  have e : ([lit "class_", lit "amount"] : List PyStr).map PyStr.hash = [39228787530386, 39151954557967] := by
    decide +kernel
  have e' : ((AttackOrArmor.object x).attrsOf.map fun p => PyStr.hash p.1) = [39228787530386, 39151954557967] := e
  rw [e']
  decide +kernel

theorem AttackOrArmor.write_eq {H : Heap} {n : Nat} {ver : Version} (hn : 0 ≤ n) (x : AttackOrArmor) {v : HVal} (h : Shows H v (AttackOrArmor.object x)) :
    AttackOrArmor.write H (W.toBytes H n) v ver = AttackOrArmor.toBytes ver x := by
  unfold AttackOrArmor.write AttackOrArmor.toBytes
  exact W.pack_eq (by decide +kernel) (.argInt (c := .h) (h.at (AttackOrArmor.distinct x) 0 rfl) (.argInt (c := .h) (h.at (AttackOrArmor.distinct x) 1 rfl) .nil))

theorem AttackOrArmor.written {H : Heap} {n : Nat} {ver : Version} (hn : 1 ≤ n) (x : AttackOrArmor) (v : HVal) (h : Shows H v (AttackOrArmor.object x)) :
    W.toBytes H n v ver = AttackOrArmor.toBytes ver x := by
  obtain ⟨m, rfl⟩ : ∃ m, n = m + 1 := ⟨n - 1, by omega⟩
  rw [Shows.dispatch (m := AttackOrArmor.write) h (by rfl)]
  exact AttackOrArmor.write_eq (by omega) x h

theorem Type50.distinct (x : Type50) : ((Type50.object x).attrsOf.map fun p => PyStr.hash p.1).Nodup := by
  have e : ([lit "base_armor", lit "attacks", lit "armours", lit "defense_terrain_bonus", lit "bonus_damage_resistance", lit "max_range", lit "blast_width", lit "reload_time", lit "projectile_unit_id", lit "accuracy_percent", lit "break_off_combat", lit "frame_delay", lit "graphic_displacement", lit "blast_attack_level", lit "min_range", lit "accuracy_dispersion", lit "attack_graphic", lit "displayed_melee_armour", lit "displayed_attack", lit "displayed_range", lit "displayed_reload_time", lit "blast_damage", lit "damage_reflection", lit "friendly_fire_damage", lit "interrupt_frame", lit "garrison_firepower", lit "attack_graphic_2"] : List PyStr).map PyStr.hash = [11540570985333530782348, 5129177530869184, 5129098342173524, 2254646904074651045526222646715048820895922535, 38618883147712014937578809385834066206121445955318, 89050019001946569623, 1511938225533162115349320, 1535673677572436070243244, 1014839301521623360409375457829038126623, 58268446099474233703641789537673918, 58332448008916216570677412363124459, 1517959899511825185736822, 17263449644897624569533581246524036736163429, 1000997785748540744436534903345637528259, 89055264963790333301, 130992769260213129520917782052264164549263, 3395836724281967191658562250288, 295367826751842190572458567777922815087348294788, 58443391945918174140203079740946173, 446132762945940260612242213613636, 2254716234746886950934805669204097162389955318, 198063907544843501764364913, 7655622298029461816400599432016995796, 17246547016993653279427276310944068498398027, 448341150963876802348279768471570, 1005843011984752970211503614567815180730, 58275954025402838976052586777204863] := by
    decide +kernel
  have e' : ((Type50.object x).attrsOf.map fun p => PyStr.hash p.1) = [11540570985333530782348, 5129177530869184, 5129098342173524, 2254646904074651045526222646715048820895922535, 38618883147712014937578809385834066206121445955318, 89050019001946569623, 1511938225533162115349320, 1535673677572436070243244, 1014839301521623360409375457829038126623, 58268446099474233703641789537673918, 58332448008916216570677412363124459, 1517959899511825185736822, 17263449644897624569533581246524036736163429, 1000997785748540744436534903345637528259, 89055264963790333301, 130992769260213129520917782052264164549263, 3395836724281967191658562250288, 295367826751842190572458567777922815087348294788, 58443391945918174140203079740946173, 446132762945940260612242213613636, 2254716234746886950934805669204097162389955318, 198063907544843501764364913, 7655622298029461816400599432016995796, 17246547016993653279427276310944068498398027, 448341150963876802348279768471570, 1005843011984752970211503614567815180730, 58275954025402838976052586777204863] := e
  rw [e']
  decide +kernel

theorem Type50.write_eq {H : Heap} {n : Nat} {ver : Version} (hn : 1 ≤ n) (x : Type50) {v : HVal} (h : Shows H v (Type50.object x)) :
    Type50.write H (W.toBytes H n) v ver = Type50.toBytes ver x := by
  unfold Type50.write Type50.toBytes
  refine congrArg joinB (parts_cons ?_ (parts_cons ?_ rfl))
  · exact congrArg joinB (
    parts_cons (W.int16_eq (h.at (Type50.distinct x) 0 rfl)) <|
    parts_cons (W.int16_eq (h.at (Type50.distinct x) 1 rfl).list.nat) <|
    parts_cons (W.classArray_eq (f := AttackOrArmor.object) (h.at (Type50.distinct x) 1 rfl).list (by intro _ e; cases e) (fun _ m _ s => AttackOrArmor.written (by omega) _ _ s)) <|
    parts_cons (W.int16_eq (h.at (Type50.distinct x) 2 rfl).list.nat) <|
    parts_cons (W.classArray_eq (f := AttackOrArmor.object) (h.at (Type50.distinct x) 2 rfl).list (by intro _ e; cases e) (fun _ m _ s => AttackOrArmor.written (by omega) _ _ s)) <|
    parts_cons (W.int16_eq (h.at (Type50.distinct x) 3 rfl)) <|
    parts_cons (W.float_eq (h.at (Type50.distinct x) 4 rfl)) <|
    parts_cons (W.float_eq (h.at (Type50.distinct x) 5 rfl)) <|
    parts_cons (W.float_eq (h.at (Type50.distinct x) 6 rfl)) <|
    parts_cons (W.float_eq (h.at (Type50.distinct x) 7 rfl)) <|
    parts_cons (W.int16_eq (h.at (Type50.distinct x) 8 rfl)) <|
    parts_cons (W.int16_eq (h.at (Type50.distinct x) 9 rfl)) <|
    parts_cons (W.int8_eq (h.at (Type50.distinct x) 10 rfl)) <|
    parts_cons (W.int16_eq (h.at (Type50.distinct x) 11 rfl)) <|
    parts_cons (W.floatArray_eq (h.at (Type50.distinct x) 12 rfl).tuple) <|
    parts_cons (W.int8_eq (h.at (Type50.distinct x) 13 rfl)) <|
    parts_cons (W.float_eq (h.at (Type50.distinct x) 14 rfl)) <|
    parts_cons (W.float_eq (h.at (Type50.distinct x) 15 rfl)) <|
    parts_cons (W.int16_eq (h.at (Type50.distinct x) 16 rfl)) <|
    parts_cons (W.int16_eq (h.at (Type50.distinct x) 17 rfl)) <|
    parts_cons (W.int16_eq (h.at (Type50.distinct x) 18 rfl)) <|
    parts_cons (W.float_eq (h.at (Type50.distinct x) 19 rfl)) <|
    parts_cons (W.float_eq (h.at (Type50.distinct x) 20 rfl)) <|
    parts_cons (W.float_eq (h.at (Type50.distinct x) 21 rfl)) <| rfl)
  · split
    · exact congrArg joinB (
    parts_cons (W.float_eq (h.at (Type50.distinct x) 22 rfl)) <|
    parts_cons (W.float_eq (h.at (Type50.distinct x) 23 rfl)) <|
    parts_cons (W.int16_eq (h.at (Type50.distinct x) 24 rfl)) <|
    parts_cons (W.float_eq (h.at (Type50.distinct x) 25 rfl)) <|
    parts_cons (W.int16_eq (h.at (Type50.distinct x) 26 rfl)) <| rfl)
    · rfl

theorem Type50.written {H : Heap} {n : Nat} {ver : Version} (hn : 2 ≤ n) (x : Type50) (v : HVal) (h : Shows H v (Type50.object x)) :
    W.toBytes H n v ver = Type50.toBytes ver x := by
  obtain ⟨m, rfl⟩ : ∃ m, n = m + 1 := ⟨n - 1, by omega⟩
  rw [Shows.dispatch (m := Type50.write) h (by rfl)]
  exact Type50.write_eq (by omega) x h

theorem Projectile.distinct (x : Projectile) : ((Projectile.object x).attrsOf.map fun p => PyStr.hash p.1).Nodup := by
  have e : ([lit "projectile_type", lit "smart_mode", lit "hit_mode", lit "vanish_mode", lit "area_effect_specials", lit "projectile_arc"] : List PyStr).map PyStr.hash = [451422696644229864542572099261785, 11734748060283881492244, 676501101286129538, 1541581908611900720908592, 17161990900982710678991777230054850082607569, 3445974783543739423989099667375] := by
    decide +kernel
  have e' : ((Projectile.object x).attrsOf.map fun p => PyStr.hash p.1) = [451422696644229864542572099261785, 11734748060283881492244, 676501101286129538, 1541581908611900720908592, 17161990900982710678991777230054850082607569, 3445974783543739423989099667375] := e
  rw [e']
  decide +kernel

theorem Projectile.write_eq {H : Heap} {n : Nat} {ver : Version} (hn : 0 ≤ n) (x : Projectile) {v : HVal} (h : Shows H v (Projectile.object x)) :
    Projectile.write H (W.toBytes H n) v ver = Projectile.toBytes ver x := by
  unfold Projectile.write Projectile.toBytes
  exact W.pack_eq (by decide +kernel) (.argInt (c := .b) (h.at (Projectile.distinct x) 0 rfl) (.argInt (c := .b) (h.at (Projectile.distinct x) 1 rfl) (.argInt (c := .b) (h.at (Projectile.distinct x) 2 rfl) (.argInt (c := .b) (h.at (Projectile.distinct x) 3 rfl) (.argInt (c := .b) (h.at (Projectile.distinct x) 4 rfl) (.argFloat (h.at (Projectile.distinct x) 5 rfl) .nil))))))

theorem Projectile.written {H : Heap} {n : Nat} {ver : Version} (hn : 1 ≤ n) (x : Projectile) (v : HVal) (h : Shows H v (Projectile.object x)) :
    W.toBytes H n v ver = Projectile.toBytes ver x := by
  obtain ⟨m, rfl⟩ : ∃ m, n = m + 1 := ⟨n - 1, by omega⟩
  rw [Shows.dispatch (m := Projectile.write) h (by rfl)]
  exact Projectile.write_eq (by omega) x h

theorem ResourceCost.distinct (x : ResourceCost) : ((ResourceCost.object x).attrsOf.map fun p => PyStr.hash p.1).Nodup := by
  have e : ([lit "type", lit "amount", lit "flag"] : List PyStr).map PyStr.hash = [2324369257, 39151954557967, 2292670927] := by
    decide +kernel
  have e' : ((ResourceCost.object x).attrsOf.map fun p => PyStr.hash p.1) = [2324369257, 39151954557967, 2292670927] := e
  rw [e']
  decide +kernel

theorem ResourceCost.write_eq {H : Heap} {n : Nat} {ver : Version} (hn : 0 ≤ n) (x : ResourceCost) {v : HVal} (h : Shows H v (ResourceCost.object x)) :
    ResourceCost.write H (W.toBytes H n) v ver = ResourceCost.toBytes ver x := by
  unfold ResourceCost.write ResourceCost.toBytes
  exact W.pack_eq (by decide +kernel) (.argInt (c := .h) (h.at (ResourceCost.distinct x) 0 rfl) (.argInt (c := .h) (h.at (ResourceCost.distinct x) 1 rfl) (.argInt (c := .h) (h.at (ResourceCost.distinct x) 2 rfl) .nil)))

theorem ResourceCost.written {H : Heap} {n : Nat} {ver : Version} (hn : 1 ≤ n) (x : ResourceCost) (v : HVal) (h : Shows H v (ResourceCost.object x)) :
    W.toBytes H n v ver = ResourceCost.toBytes ver x := by
  obtain ⟨m, rfl⟩ : ∃ m, n = m + 1 := ⟨n - 1, by omega⟩
  rw [Shows.dispatch (m := ResourceCost.write) h (by rfl)]
  exact ResourceCost.write_eq (by omega) x h

theorem TrainLocation.distinct (x : TrainLocation) : ((TrainLocation.object x).attrsOf.map fun p => PyStr.hash p.1).Nodup := by
  have e : ([lit "train_time", lit "unit_id", lit "button_id", lit "hot_key_id"] : List PyStr).map PyStr.hash = [11746543322238986739435, 5230021119962575, 88109208609887691005, 11609955780312026181352] := by
    decide +kernel
  have e' : ((TrainLocation.object x).attrsOf.map fun p => PyStr.hash p.1) = [11746543322238986739435, 5230021119962575, 88109208609887691005, 11609955780312026181352] := e
  rw [e']
  decide +kernel

theorem TrainLocation.write_eq {H : Heap} {n : Nat} {ver : Version} (hn : 0 ≤ n) (x : TrainLocation) {v : HVal} (h : Shows H v (TrainLocation.object x)) :
    TrainLocation.write H (W.toBytes H n) v ver = TrainLocation.toBytes ver x := by
  unfold TrainLocation.write TrainLocation.toBytes
  split
  · exact W.pack_eq (by decide +kernel) (.argInt (c := .h) (h.at (TrainLocation.distinct x) 0 rfl) (.argInt (c := .h) (h.at (TrainLocation.distinct x) 1 rfl) (.argInt (c := .b) (h.at (TrainLocation.distinct x) 2 rfl) (.argInt (c := .l) (h.at (TrainLocation.distinct x) 3 rfl) .nil))))
  exact W.pack_eq (by decide +kernel) (.argInt (c := .h) (h.at (TrainLocation.distinct x) 0 rfl) (.argInt (c := .h) (h.at (TrainLocation.distinct x) 1 rfl) (.argInt (c := .b) (h.at (TrainLocation.distinct x) 2 rfl) .nil)))

theorem TrainLocation.written {H : Heap} {n : Nat} {ver : Version} (hn : 1 ≤ n) (x : TrainLocation) (v : HVal) (h : Shows H v (TrainLocation.object x)) :
    W.toBytes H n v ver = TrainLocation.toBytes ver x := by
  obtain ⟨m, rfl⟩ : ∃ m, n = m + 1 := ⟨n - 1, by omega⟩
  rw [Shows.dispatch (m := TrainLocation.write) h (by rfl)]
  exact TrainLocation.write_eq (by omega) x h

theorem Creatable.distinct (x : Creatable) : ((Creatable.object false x).attrsOf.map fun p => PyStr.hash p.1).Nodup := by
  have e : ([lit "resource_costs", lit "train_locations", lit "rear_attack_modifier", lit "flank_attack_modifier", lit "creatable_type", lit "hero_mode", lit "garrison_graphic", lit "spawning_graphic", lit "upgrade_graphic", lit "hero_glow_graphic", lit "idle_attack_graphic", lit "max_charge", lit "recharge_rate", lit "charge_event", lit "charge_type", lit "charge_target", lit "charge_projectile_unit", lit "attack_priority", lit "invulnerability_level", lit "button_icon_id", lit "button_short_tooltip_id", lit "button_extended_tooltip_id", lit "button_hotkey_action", lit "min_conversion_time_mod", lit "max_conversion_time_mod", lit "conversion_chance_mod", lit "total_projectiles", lit "max_total_projectiles", lit "projectile_spawning_area", lit "secondary_projectile_unit", lit "special_graphic", lit "special_ability", lit "displayed_pierce_armour"] : List PyStr).map PyStr.hash = [3452335538557674233471607450560, 453175646535341457142847746000496, 17447786240902506094430573769461541889451282, 2259195172801804292553381335758630625437080480, 3402474729711585789699009201033, 88618986523313605753, 58612144512834506742707081046580175, 59307712573995852223942438328316447, 453607436424417527623242443025890, 7685942732382936807281272502562624432, 132026519366566278102252028326982560828037, 11665552488678340739246, 26353682505905091962206279813, 198252931331296531235296366, 1513381155200736913433030, 25971134004399846164360773577, 295075107484437736827315020564477751118940647866, 444854610880937708066143615795572, 2265877509873904205421934094323583056358715561, 3399208301722962271394042224995, 38620637621097766070361901974087497327030339422464, 86822707850251296231467813754324300397652416455468002643, 17179303516226774379603696541772217876896553, 39035319582498559357278589548416847991915781452581, 39033020136225705571974894856517489354054910994743, 2252601791584729643118117370921888558414597121, 7776783309107531763326816568054107508, 2274518975492117744582410982444091206101481809, 5128909685293081345117967960722235006291934761086790, 673779159617567271975453497611459201873755565825238476, 452730728596917725913037404462943, 452730728596917725882099000788469, 38693185304491326964992149774660550858194221578370] := by
    decide +kernel
  have e' : ((Creatable.object false x).attrsOf.map fun p => PyStr.hash p.1) = [3452335538557674233471607450560, 453175646535341457142847746000496, 17447786240902506094430573769461541889451282, 2259195172801804292553381335758630625437080480, 3402474729711585789699009201033, 88618986523313605753, 58612144512834506742707081046580175, 59307712573995852223942438328316447, 453607436424417527623242443025890, 7685942732382936807281272502562624432, 132026519366566278102252028326982560828037, 11665552488678340739246, 26353682505905091962206279813, 198252931331296531235296366, 1513381155200736913433030, 25971134004399846164360773577, 295075107484437736827315020564477751118940647866, 444854610880937708066143615795572, 2265877509873904205421934094323583056358715561, 3399208301722962271394042224995, 38620637621097766070361901974087497327030339422464, 86822707850251296231467813754324300397652416455468002643, 17179303516226774379603696541772217876896553, 39035319582498559357278589548416847991915781452581, 39033020136225705571974894856517489354054910994743, 2252601791584729643118117370921888558414597121, 7776783309107531763326816568054107508, 2274518975492117744582410982444091206101481809, 5128909685293081345117967960722235006291934761086790, 673779159617567271975453497611459201873755565825238476, 452730728596917725913037404462943, 452730728596917725882099000788469, 38693185304491326964992149774660550858194221578370] := e
  rw [e']
  decide +kernel

theorem Creatable.write78_eq {H : Heap} {n : Nat} {ver : Version} (hn : 1 ≤ n) (x : Creatable) (hs : x.Sized) {v : HVal} (h : Shows H v (Creatable.object false x)) :
    Creatable.write78 H (W.toBytes H n) v ver = Creatable.toBytes78 ver x := by
  unfold Creatable.write78 Creatable.toBytes78
  refine congrArg joinB (parts_cons (W.classArray_eq (f := ResourceCost.object) (h.at (Creatable.distinct x) 0 rfl).tuple (by intro _ e; cases e) (fun _ m _ s => ResourceCost.written (by omega) _ _ s)) <| parts_cons ?_ rfl)
  have ht := (h.at (Creatable.distinct x) 1 rfl).list
  cases htl : x.train_locations with
  | nil =>
    rw [htl] at ht
    simp only [W.pack, W.args, W.arg, W.attrOf, ht.first_none, bind, Except.bind]
  | cons t ts =>
    rw [htl] at ht
    have h_first := ht.first
    exact (W.pack_eq (by decide +kernel) (.argInt (c := .h) (h_first.at (TrainLocation.distinct _) 0 rfl) (.argInt (c := .h) (h_first.at (TrainLocation.distinct _) 1 rfl) (.argInt (c := .b) (h_first.at (TrainLocation.distinct _) 2 rfl) (.argFloat (h.at (Creatable.distinct x) 2 rfl) (.argFloat (h.at (Creatable.distinct x) 3 rfl) (.argInt (c := .b) (h.at (Creatable.distinct x) 4 rfl) (.argInt (c := .b) (h.at (Creatable.distinct x) 5 rfl) (.argInt (c := .l) (h.at (Creatable.distinct x) 6 rfl) (.argInt (c := .h) (h.at (Creatable.distinct x) 7 rfl) (.argInt (c := .h) (h.at (Creatable.distinct x) 8 rfl) (.argInt (c := .h) (h.at (Creatable.distinct x) 9 rfl) (.argFloat (h.at (Creatable.distinct x) 11 rfl) (.argFloat (h.at (Creatable.distinct x) 12 rfl) (.argInt (c := .h) (h.at (Creatable.distinct x) 13 rfl) (.argInt (c := .h) (h.at (Creatable.distinct x) 14 rfl) (.argFloat (h.at (Creatable.distinct x) 23 rfl) (.argFloat (h.at (Creatable.distinct x) 24 rfl) (.argFloat (h.at (Creatable.distinct x) 25 rfl) (.argFloat (h.at (Creatable.distinct x) 26 rfl) (.argInt (c := .b) (h.at (Creatable.distinct x) 27 rfl) (.starFloat (n := 3) (h.at (Creatable.distinct x) 28 rfl).tuple hs.symm (.argInt (c := .l) (h.at (Creatable.distinct x) 29 rfl) (.argInt (c := .l) (h.at (Creatable.distinct x) 30 rfl) (.argInt (c := .b) (h.at (Creatable.distinct x) 31 rfl) (.argInt (c := .h) (h.at (Creatable.distinct x) 32 rfl) .nil)))))))))))))))))))))))))).trans (congrArg (structPack _) (by simp only [List.append_assoc, List.cons_append, List.nil_append, List.append_nil]))

theorem Creatable.write84_eq {H : Heap} {n : Nat} {ver : Version} (hn : 1 ≤ n) (x : Creatable) (hs : x.Sized) {v : HVal} (h : Shows H v (Creatable.object false x)) :
    Creatable.write84 H (W.toBytes H n) v ver = Creatable.toBytes84 ver x := by
  unfold Creatable.write84 Creatable.toBytes84
  refine congrArg joinB (parts_cons (W.classArray_eq (f := ResourceCost.object) (h.at (Creatable.distinct x) 0 rfl).tuple (by intro _ e; cases e) (fun _ m _ s => ResourceCost.written (by omega) _ _ s)) <| parts_cons ?_ rfl)
  have ht := (h.at (Creatable.distinct x) 1 rfl).list
  cases htl : x.train_locations with
  | nil =>
    rw [htl] at ht
    simp only [W.pack, W.args, W.arg, W.attrOf, ht.first_none, bind, Except.bind]
  | cons t ts =>
    rw [htl] at ht
    have h_first := ht.first
    exact (W.pack_eq (by decide +kernel) (.argInt (c := .h) (h_first.at (TrainLocation.distinct _) 0 rfl) (.argInt (c := .h) (h_first.at (TrainLocation.distinct _) 1 rfl) (.argInt (c := .b) (h_first.at (TrainLocation.distinct _) 2 rfl) (.argFloat (h.at (Creatable.distinct x) 2 rfl) (.argFloat (h.at (Creatable.distinct x) 3 rfl) (.argInt (c := .b) (h.at (Creatable.distinct x) 4 rfl) (.argInt (c := .b) (h.at (Creatable.distinct x) 5 rfl) (.argInt (c := .l) (h.at (Creatable.distinct x) 6 rfl) (.argInt (c := .h) (h.at (Creatable.distinct x) 7 rfl) (.argInt (c := .h) (h.at (Creatable.distinct x) 8 rfl) (.argInt (c := .h) (h.at (Creatable.distinct x) 9 rfl) (.argInt (c := .h) (h.at (Creatable.distinct x) 10 rfl) (.argFloat (h.at (Creatable.distinct x) 11 rfl) (.argFloat (h.at (Creatable.distinct x) 12 rfl) (.argInt (c := .h) (h.at (Creatable.distinct x) 13 rfl) (.argInt (c := .h) (h.at (Creatable.distinct x) 14 rfl) (.argInt (c := .h) (h.at (Creatable.distinct x) 15 rfl) (.argInt (c := .l) (h.at (Creatable.distinct x) 16 rfl) (.argInt (c := .b) (h.at (Creatable.distinct x) 17 rfl) (.argFloat (h.at (Creatable.distinct x) 18 rfl) (.argInt (c := .h) (h.at (Creatable.distinct x) 19 rfl) (.argInt (c := .l) (h.at (Creatable.distinct x) 20 rfl) (.argInt (c := .l) (h.at (Creatable.distinct x) 21 rfl) (.argInt (c := .h) (h.at (Creatable.distinct x) 22 rfl) (.argFloat (h.at (Creatable.distinct x) 23 rfl) (.argFloat (h.at (Creatable.distinct x) 24 rfl) (.argFloat (h.at (Creatable.distinct x) 25 rfl) (.argFloat (h.at (Creatable.distinct x) 26 rfl) (.argInt (c := .b) (h.at (Creatable.distinct x) 27 rfl) (.starFloat (n := 3) (h.at (Creatable.distinct x) 28 rfl).tuple hs.symm (.argInt (c := .l) (h.at (Creatable.distinct x) 29 rfl) (.argInt (c := .l) (h.at (Creatable.distinct x) 30 rfl) (.argInt (c := .b) (h.at (Creatable.distinct x) 31 rfl) (.argInt (c := .h) (h.at (Creatable.distinct x) 32 rfl) .nil))))))))))))))))))))))))))))))))))).trans (congrArg (structPack _) (by simp only [List.append_assoc, List.cons_append, List.nil_append, List.append_nil]))

theorem Creatable.write88_eq {H : Heap} {n : Nat} {ver : Version} (hn : 1 ≤ n) (x : Creatable) (hs : x.Sized) {v : HVal} (h : Shows H v (Creatable.object false x)) :
    Creatable.write88 H (W.toBytes H n) v ver = Creatable.toBytes88 ver x := by
  unfold Creatable.write88 Creatable.toBytes88
  exact congrArg joinB (
    parts_cons (W.classArray_eq (f := ResourceCost.object) (h.at (Creatable.distinct x) 0 rfl).tuple (by intro _ e; cases e) (fun _ m _ s => ResourceCost.written (by omega) _ _ s)) <|
    parts_cons (W.int16_eq (h.at (Creatable.distinct x) 1 rfl).list.nat) <|
    parts_cons (W.classArray_eq (f := TrainLocation.object) (h.at (Creatable.distinct x) 1 rfl).list (by intro _ e; cases e) (fun _ m _ s => TrainLocation.written (by omega) _ _ s)) <|
    parts_cons ((W.pack_eq (by decide +kernel) (.argFloat (h.at (Creatable.distinct x) 2 rfl) (.argFloat (h.at (Creatable.distinct x) 3 rfl) (.argInt (c := .b) (h.at (Creatable.distinct x) 4 rfl) (.argInt (c := .b) (h.at (Creatable.distinct x) 5 rfl) (.argInt (c := .l) (h.at (Creatable.distinct x) 6 rfl) (.argInt (c := .h) (h.at (Creatable.distinct x) 7 rfl) (.argInt (c := .h) (h.at (Creatable.distinct x) 8 rfl) (.argInt (c := .h) (h.at (Creatable.distinct x) 9 rfl) (.argInt (c := .h) (h.at (Creatable.distinct x) 10 rfl) (.argFloat (h.at (Creatable.distinct x) 11 rfl) (.argFloat (h.at (Creatable.distinct x) 12 rfl) (.argInt (c := .h) (h.at (Creatable.distinct x) 13 rfl) (.argInt (c := .h) (h.at (Creatable.distinct x) 14 rfl) (.argInt (c := .h) (h.at (Creatable.distinct x) 15 rfl) (.argInt (c := .l) (h.at (Creatable.distinct x) 16 rfl) (.argInt (c := .b) (h.at (Creatable.distinct x) 17 rfl) (.argFloat (h.at (Creatable.distinct x) 18 rfl) (.argInt (c := .h) (h.at (Creatable.distinct x) 19 rfl) (.argInt (c := .l) (h.at (Creatable.distinct x) 20 rfl) (.argInt (c := .l) (h.at (Creatable.distinct x) 21 rfl) (.argInt (c := .h) (h.at (Creatable.distinct x) 22 rfl) (.argFloat (h.at (Creatable.distinct x) 23 rfl) (.argFloat (h.at (Creatable.distinct x) 24 rfl) (.argFloat (h.at (Creatable.distinct x) 25 rfl) (.argFloat (h.at (Creatable.distinct x) 26 rfl) (.argInt (c := .b) (h.at (Creatable.distinct x) 27 rfl) (.starFloat (n := 3) (h.at (Creatable.distinct x) 28 rfl).tuple hs.symm (.argInt (c := .l) (h.at (Creatable.distinct x) 29 rfl) (.argInt (c := .l) (h.at (Creatable.distinct x) 30 rfl) (.argInt (c := .b) (h.at (Creatable.distinct x) 31 rfl) (.argInt (c := .h) (h.at (Creatable.distinct x) 32 rfl) .nil)))))))))))))))))))))))))))))))).trans (congrArg (structPack _) (by simp only [List.append_assoc, List.cons_append, List.nil_append, List.append_nil]))) <| rfl)

theorem Creatable.write_eq {H : Heap} {n : Nat} {ver : Version} (hn : 1 ≤ n) (x : Creatable) (hs : x.Sized) {v : HVal} (h : Shows H v (Creatable.object false x)) :
    Creatable.write H (W.toBytes H n) v ver = Creatable.toBytes ver x := by
  unfold Creatable.write Creatable.toBytes
  split
  · exact Creatable.write88_eq hn x hs h
  split
  · exact Creatable.write84_eq hn x hs h
  exact Creatable.write78_eq hn x hs h

theorem Creatable.written {H : Heap} {n : Nat} {ver : Version} (hn : 2 ≤ n) (x : Creatable) (hs : x.Sized) (v : HVal) (h : Shows H v (Creatable.object false x)) :
    W.toBytes H n v ver = Creatable.toBytes ver x := by
  obtain ⟨m, rfl⟩ : ∃ m, n = m + 1 := ⟨n - 1, by omega⟩
  rw [Shows.dispatch (m := Creatable.write) h (by rfl)]
  exact Creatable.write_eq (by omega) x hs h

theorem BuildingAnnex.distinct (x : BuildingAnnex) : ((BuildingAnnex.object x).attrsOf.map fun p => PyStr.hash p.1).Nodup := by
  have e : ([lit "unit_id", lit "misplacement_x", lit "misplacement_y"] : List PyStr).map PyStr.hash = [5230021119962575, 3435707673158793424581114177794, 3435707673158793424581114177795] := by
    decide +kernel
  have e' : ((BuildingAnnex.object x).attrsOf.map fun p => PyStr.hash p.1) = [5230021119962575, 3435707673158793424581114177794, 3435707673158793424581114177795] := e
  rw [e']
  decide +kernel

theorem BuildingAnnex.write_eq {H : Heap} {n : Nat} {ver : Version} (hn : 0 ≤ n) (x : BuildingAnnex) {v : HVal} (h : Shows H v (BuildingAnnex.object x)) :
    BuildingAnnex.write H (W.toBytes H n) v ver = BuildingAnnex.toBytes ver x := by
  unfold BuildingAnnex.write BuildingAnnex.toBytes
  exact W.pack_eq (by decide +kernel) (.argInt (c := .h) (h.at (BuildingAnnex.distinct x) 0 rfl) (.argFloat (h.at (BuildingAnnex.distinct x) 1 rfl) (.argFloat (h.at (BuildingAnnex.distinct x) 2 rfl) .nil)))

theorem BuildingAnnex.written {H : Heap} {n : Nat} {ver : Version} (hn : 1 ≤ n) (x : BuildingAnnex) (v : HVal) (h : Shows H v (BuildingAnnex.object x)) :
    W.toBytes H n v ver = BuildingAnnex.toBytes ver x := by
  obtain ⟨m, rfl⟩ : ∃ m, n = m + 1 := ⟨n - 1, by omega⟩
  rw [Shows.dispatch (m := BuildingAnnex.write) h (by rfl)]
  exact BuildingAnnex.write_eq (by omega) x h

theorem Building.distinct (x : Building) : ((Building.object x).attrsOf.map fun p => PyStr.hash p.1).Nodup := by
  have e : ([lit "construction_graphic_id", lit "snow_graphic_id", lit "destruction_graphic_id", lit "destruction_rubble_graphic_id", lit "researching_graphic", lit "research_completed_graphic", lit "adjacent_mode", lit "graphics_angle", lit "disappears_when_built", lit "stack_unit_id", lit "foundation_terrain_id", lit "old_overlap_id", lit "tech_id", lit "can_burn", lit "annexes", lit "head_unit", lit "transform_unit", lit "transform_sound", lit "construction_sound", lit "wwise_transform_sound_id", lit "wwise_construction_sound_id", lit "garrison_type", lit "garrison_heal_rate", lit "garrison_repair_rate", lit "pile_unit", lit "looting_table"] : List PyStr).map PyStr.hash = [38656899296590582656640409326249609534727229482989, 452724295888056820384421279175631, 295358966209617462261501371228707208841130769690, 195546131570652378182469901110933261038303745746357989135196341, 133189342598590507783613068780642452050389, 88179685370068207374582417262998283830763300130483595483, 25919283220598773722966469529, 3415857999940682989585655445710, 2254716219996846095769320844177117848879206453, 26382146172115198066160867704, 2259248485780191012659819495145495155779057898, 3442473363319977156480127161682, 5224618197434817, 673150125369909137, 5128944296283711, 88618900182433735052, 3459356087921756376408824448358, 453175647517750085309555416188393, 1002006497397732584034912881289262715108, 5163958884343230944779555496626699862418151493434297, 11609049492262020689307499051523184380537052170401588331922, 26071962617542842679754981611, 1005843011984752970211674341072798434774, 17261271928670345721817428431088511832252757, 89315445692297464966, 26202398048939276580366435506] := by
    decide +kernel
  have e' : ((Building.object x).attrsOf.map fun p => PyStr.hash p.1) = [38656899296590582656640409326249609534727229482989, 452724295888056820384421279175631, 295358966209617462261501371228707208841130769690, 195546131570652378182469901110933261038303745746357989135196341, 133189342598590507783613068780642452050389, 88179685370068207374582417262998283830763300130483595483, 25919283220598773722966469529, 3415857999940682989585655445710, 2254716219996846095769320844177117848879206453, 26382146172115198066160867704, 2259248485780191012659819495145495155779057898, 3442473363319977156480127161682, 5224618197434817, 673150125369909137, 5128944296283711, 88618900182433735052, 3459356087921756376408824448358, 453175647517750085309555416188393, 1002006497397732584034912881289262715108, 5163958884343230944779555496626699862418151493434297, 11609049492262020689307499051523184380537052170401588331922, 26071962617542842679754981611, 1005843011984752970211674341072798434774, 17261271928670345721817428431088511832252757, 89315445692297464966, 26202398048939276580366435506] := e
  rw [e']
  decide +kernel

theorem Building.write_eq {H : Heap} {n : Nat} {ver : Version} (hn : 1 ≤ n) (x : Building) (hs : x.Sized) {v : HVal} (h : Shows H v (Building.object x)) :
    Building.write H (W.toBytes H n) v ver = Building.toBytes ver x := by
  unfold Building.write Building.toBytes
  exact congrArg joinB (
    parts_cons (W.pack_eq (by decide +kernel) (.argInt (c := .h) (h.at (Building.distinct x) 0 rfl) (.argInt (c := .h) (h.at (Building.distinct x) 1 rfl) (.argInt (c := .h) (h.at (Building.distinct x) 2 rfl) (.argInt (c := .h) (h.at (Building.distinct x) 3 rfl) (.argInt (c := .h) (h.at (Building.distinct x) 4 rfl) (.argInt (c := .h) (h.at (Building.distinct x) 5 rfl) (.argInt (c := .b) (h.at (Building.distinct x) 6 rfl) (.argInt (c := .h) (h.at (Building.distinct x) 7 rfl) (.argInt (c := .b) (h.at (Building.distinct x) 8 rfl) (.argInt (c := .h) (h.at (Building.distinct x) 9 rfl) (.argInt (c := .h) (h.at (Building.distinct x) 10 rfl) (.argInt (c := .h) (h.at (Building.distinct x) 11 rfl) (.argInt (c := .h) (h.at (Building.distinct x) 12 rfl) (.argInt (c := .b) (h.at (Building.distinct x) 13 rfl) .nil))))))))))))))) <|
    parts_cons (W.classArray_eq (f := BuildingAnnex.object) (h.at (Building.distinct x) 14 rfl).tuple (by intro _ e; cases e) (fun _ m _ s => BuildingAnnex.written (by omega) _ _ s)) <|
    parts_cons ((W.pack_eq (by decide +kernel) (.argInt (c := .h) (h.at (Building.distinct x) 15 rfl) (.argInt (c := .h) (h.at (Building.distinct x) 16 rfl) (.argInt (c := .h) (h.at (Building.distinct x) 17 rfl) (.argInt (c := .h) (h.at (Building.distinct x) 18 rfl) (.argInt (c := .l) (h.at (Building.distinct x) 19 rfl) (.argInt (c := .l) (h.at (Building.distinct x) 20 rfl) (.argInt (c := .b) (h.at (Building.distinct x) 21 rfl) (.argFloat (h.at (Building.distinct x) 22 rfl) (.argFloat (h.at (Building.distinct x) 23 rfl) (.argInt (c := .h) (h.at (Building.distinct x) 24 rfl) (.starInt (cs1 := [.b, .b, .b, .b, .b, .b]) (h.at (Building.distinct x) 25 rfl).tuple hs.symm .nil)))))))))))).trans (congrArg (structPack _) (by simp only [List.append_assoc, List.cons_append, List.nil_append, List.append_nil]))) <| rfl)

theorem Building.written {H : Heap} {n : Nat} {ver : Version} (hn : 2 ≤ n) (x : Building) (hs : x.Sized) (v : HVal) (h : Shows H v (Building.object x)) :
    W.toBytes H n v ver = Building.toBytes ver x := by
  obtain ⟨m, rfl⟩ : ∃ m, n = m + 1 := ⟨n - 1, by omega⟩
  rw [Shows.dispatch (m := Building.write) h (by rfl)]
  exact Building.write_eq (by omega) x hs h

theorem Unit.distinct (x : Unit) : ((Unit.object false x).attrsOf.map fun p => PyStr.hash p.1).Nodup := by
  have e : ([lit "type", lit "id", lit "language_dll_name", lit "language_dll_creation", lit "class_", lit "standing_graphic", lit "dying_graphic", lit "undead_graphic", lit "undead_mode", lit "hit_points", lit "line_of_sight", lit "garrison_capacity", lit "collision_size_x", lit "collision_size_y", lit "collision_size_z", lit "train_sound", lit "damage_sound", lit "dead_unit_id", lit "blood_unit_id", lit "sort_number", lit "can_be_built_on", lit "icon_id", lit "hide_in_editor", lit "old_portrait_pict", lit "enabled", lit "disabled", lit "placement_side_terrain", lit "placement_terrain", lit "clearance_size", lit "hill_mode", lit "fog_visibility", lit "terrain_restriction", lit "fly_mode", lit "resource_capacity", lit "resource_decay", lit "blast_defense_level", lit "combat_level", lit "interaction_mode", lit "minimap_mode", lit "interface_kind", lit "multiple_attribute_mode", lit "minimap_color", lit "language_dll_help", lit "language_dll_hotkey_text", lit "hot_key", lit "recyclable", lit "enable_auto_gather", lit "create_doppelganger_on_death", lit "resource_gather_group", lit "occlusion_mode", lit "obstruction_type", lit "obstruction_class", lit "trait", lit "civilization", lit "nothing", lit "selection_effect", lit "editor_selection_colour", lit "outline_size_x", lit "outline_size_y", lit "outline_size_z", lit "scenario_triggers_1", lit "scenario_triggers_2", lit "resource_storages", lit "damage_graphics", lit "selection_sound", lit "dying_sound", lit "wwise_train_sound_id", lit "wwise_damage_sound_id", lit "wwise_selection_sound_id", lit "wwise_dying_sound_id", lit "old_attack_reaction", lit "convert_terrain", lit "name", lit "copy_id", lit "base_id", lit "speed", lit "dead_fish", lit "bird", lit "type_50", lit "projectile", lit "creatable", lit "building"] : List PyStr).map PyStr.hash = [2324369257, 133982, 7715799782339441217362266255101427926, 2272302426350782633697331240501139289325415922, 39228787530386, 59309465649829008400948376817725372, 26000002519662793950922327055, 3462600498088720698279254799821, 1540240363085266890213898, 11609435399287018880786, 26201226524931678955639318777, 7678190931181320383291894024354554747, 58388577556728017405023691383005242, 58388577556728017405023691383005243, 58388577556728017405023691383005244, 1538797175213306981993177, 198437624947457650044161262, 198443442370640271031086158, 25946392678818579517415254298, 1537276194842530439810667, 445667536935078233628963638309862, 5168951541356022, 3418974697042989787214582268809, 7738993385843567334174516393554566083, 5149156113411642, 673852812783256131, 298856564879322310220040591696718644402926851058, 7746514212159252760044780118566124652, 3402321477460450758072833513971, 88621604334583874358, 3412436511560314977575821221594, 133447510306769969129637758683706466865815, 675192330679209014, 7761164453211660425199348588984741340, 3452335538557674233471879192512, 131130709933058911201848562125382882377107, 198263484918748685311051768, 58732690776242354528154722992183407, 200204340531704170584419480, 3422451534074341367799509779769, 39038797906262400064032712797934125582917684382294, 26226768609653246343614091382, 7715799782339441217362266255088007904, 5108342633957357281771267085796855833716040498572027, 5164362021071222, 11722693920852275412103, 1003969018906909174906882273116039083258, 1491396252722675981315612672582356497828928210610271467153721, 2285662318338842191500814524321961998965113421, 3442243309416771548255663652728, 59071952845851974354274167443597824, 7738425822806608640409915930075335638, 304476379255, 198254657525867744092385648, 5194685520136566, 59302927322119090559141143287532559, 38729728403092733345597798138503406552538308813330, 3442706380580881537527487235458, 3442706380580881537527487235459, 3442706380580881537527487235460, 133316354249929990172851437612736399475709, 133316354249929990172851437612736399475710, 7761164453211660425210037581707372186, 446105838705755008015067822288128, 452694101695565576787341115150861, 1515063371578745672631374, 17534669845779792059018402772326866926397961, 2297041749797145689923581176126419256631005216, 5163958884343229862220726556032751649147917727082885, 17534669845779738703268056147758342441329888, 132808865487903332684224866131607290224721, 445714385521993115158938828599198, 2310468454, 5139091335595070, 5133498148133618, 304177451256, 88271979368523904216, 2283629304, 5225393608975673, 11701105969205809817480, 88193876085226853528, 672588951946234383] := by
    decide +kernel
  have e' : ((Unit.object false x).attrsOf.map fun p => PyStr.hash p.1) = [2324369257, 133982, 7715799782339441217362266255101427926, 2272302426350782633697331240501139289325415922, 39228787530386, 59309465649829008400948376817725372, 26000002519662793950922327055, 3462600498088720698279254799821, 1540240363085266890213898, 11609435399287018880786, 26201226524931678955639318777, 7678190931181320383291894024354554747, 58388577556728017405023691383005242, 58388577556728017405023691383005243, 58388577556728017405023691383005244, 1538797175213306981993177, 198437624947457650044161262, 198443442370640271031086158, 25946392678818579517415254298, 1537276194842530439810667, 445667536935078233628963638309862, 5168951541356022, 3418974697042989787214582268809, 7738993385843567334174516393554566083, 5149156113411642, 673852812783256131, 298856564879322310220040591696718644402926851058, 7746514212159252760044780118566124652, 3402321477460450758072833513971, 88621604334583874358, 3412436511560314977575821221594, 133447510306769969129637758683706466865815, 675192330679209014, 7761164453211660425199348588984741340, 3452335538557674233471879192512, 131130709933058911201848562125382882377107, 198263484918748685311051768, 58732690776242354528154722992183407, 200204340531704170584419480, 3422451534074341367799509779769, 39038797906262400064032712797934125582917684382294, 26226768609653246343614091382, 7715799782339441217362266255088007904, 5108342633957357281771267085796855833716040498572027, 5164362021071222, 11722693920852275412103, 1003969018906909174906882273116039083258, 1491396252722675981315612672582356497828928210610271467153721, 2285662318338842191500814524321961998965113421, 3442243309416771548255663652728, 59071952845851974354274167443597824, 7738425822806608640409915930075335638, 304476379255, 198254657525867744092385648, 5194685520136566, 59302927322119090559141143287532559, 38729728403092733345597798138503406552538308813330, 3442706380580881537527487235458, 3442706380580881537527487235459, 3442706380580881537527487235460, 133316354249929990172851437612736399475709, 133316354249929990172851437612736399475710, 7761164453211660425210037581707372186, 446105838705755008015067822288128, 452694101695565576787341115150861, 1515063371578745672631374, 17534669845779792059018402772326866926397961, 2297041749797145689923581176126419256631005216, 5163958884343229862220726556032751649147917727082885, 17534669845779738703268056147758342441329888, 132808865487903332684224866131607290224721, 445714385521993115158938828599198, 2310468454, 5139091335595070, 5133498148133618, 304177451256, 88271979368523904216, 2283629304, 5225393608975673, 11701105969205809817480, 88193876085226853528, 672588951946234383] := e
  rw [e']
  decide +kernel

theorem Unit.write84_eq {H : Heap} {n : Nat} {ver : Version} (hn : 2 ≤ n) (x : Unit) (hs : x.Sized) {v : HVal} (h : Shows H v (Unit.object false x)) :
    Unit.write84 H (W.toBytes H n) v ver = Unit.toBytes84 ver x := by
  unfold Unit.write84 Unit.toBytes84
  refine bind_eq (W.when2 (W.neInt_eq (h.at (Unit.distinct x) 0 rfl)) (W.geInt_eq (h.at (Unit.distinct x) 0 rfl)) (W.ifNotNone_eq (h.at (Unit.distinct x) 75 rfl) (by intro _ e; cases e) fun y ey e => W.float_eq e)) fun speed => ?_
  refine bind_eq (W.when3 (W.neInt_eq (h.at (Unit.distinct x) 0 rfl)) (W.geInt_eq (h.at (Unit.distinct x) 0 rfl)) (W.geInt_eq (h.at (Unit.distinct x) 0 rfl)) (W.ifNotNone_eq (h.at (Unit.distinct x) 76 rfl) (by intro _ e; cases e) fun y ey e => W.cls_eq (f := DeadFish.object) e (fun _ s => DeadFish.written (by omega) _ _ s))) fun dead_fish => ?_
  refine bind_eq (W.when3 (W.neInt_eq (h.at (Unit.distinct x) 0 rfl)) (W.geInt_eq (h.at (Unit.distinct x) 0 rfl)) (W.geInt_eq (h.at (Unit.distinct x) 0 rfl)) (W.ifNotNone_eq (h.at (Unit.distinct x) 77 rfl) (by intro _ e; cases e) fun y ey e => W.cls_eq (f := Bird.object) e (fun _ s => Bird.written (by omega) _ _ s))) fun bird => ?_
  refine bind_eq (W.when3 (W.neInt_eq (h.at (Unit.distinct x) 0 rfl)) (W.geInt_eq (h.at (Unit.distinct x) 0 rfl)) (W.geInt_eq (h.at (Unit.distinct x) 0 rfl)) (W.ifNotNone_eq (h.at (Unit.distinct x) 78 rfl) (by intro _ e; cases e) fun y ey e => W.cls_eq (f := Type50.object) e (fun _ s => Type50.written (by omega) _ _ s))) fun type_50 => ?_
  refine bind_eq (W.when3 (W.neInt_eq (h.at (Unit.distinct x) 0 rfl)) (W.geInt_eq (h.at (Unit.distinct x) 0 rfl)) (W.eqInt_eq (h.at (Unit.distinct x) 0 rfl)) (W.ifNotNone_eq (h.at (Unit.distinct x) 79 rfl) (by intro _ e; cases e) fun y ey e => W.cls_eq (f := Projectile.object) e (fun _ s => Projectile.written (by omega) _ _ s))) fun projectile => ?_
  refine bind_eq (W.when3 (W.neInt_eq (h.at (Unit.distinct x) 0 rfl)) (W.geInt_eq (h.at (Unit.distinct x) 0 rfl)) (W.geInt_eq (h.at (Unit.distinct x) 0 rfl)) (W.ifNotNone_eq (h.at (Unit.distinct x) 80 rfl) (by intro _ e; cases e) fun y ey e => W.cls_eq (f := Creatable.object false) e (fun _ s => Creatable.written (by omega) _ (hs.2.2.2.2.1 _ ey) _ s))) fun creatable => ?_
  refine bind_eq (W.when3 (W.neInt_eq (h.at (Unit.distinct x) 0 rfl)) (W.geInt_eq (h.at (Unit.distinct x) 0 rfl)) (W.eqInt_eq (h.at (Unit.distinct x) 0 rfl)) (W.ifNotNone_eq (h.at (Unit.distinct x) 81 rfl) (by intro _ e; cases e) fun y ey e => W.cls_eq (f := Building.object) e (fun _ s => Building.written (by omega) _ (hs.2.2.2.2.2 _ ey) _ s))) fun building => ?_
  exact congrArg joinB (
    parts_cons ((W.pack_eq (by decide +kernel) (.argInt (c := .b) (h.at (Unit.distinct x) 0 rfl) (.argInt (c := .h) (h.at (Unit.distinct x) 1 rfl) (.argInt (c := .l) (h.at (Unit.distinct x) 2 rfl) (.argInt (c := .l) (h.at (Unit.distinct x) 3 rfl) (.argInt (c := .h) (h.at (Unit.distinct x) 4 rfl) (.starInt (cs1 := [.h, .h]) (h.at (Unit.distinct x) 5 rfl).tuple hs.1.symm (.argInt (c := .h) (h.at (Unit.distinct x) 6 rfl) (.argInt (c := .h) (h.at (Unit.distinct x) 7 rfl) (.argInt (c := .b) (h.at (Unit.distinct x) 8 rfl) (.argInt (c := .h) (h.at (Unit.distinct x) 9 rfl) (.argFloat (h.at (Unit.distinct x) 10 rfl) (.argInt (c := .b) (h.at (Unit.distinct x) 11 rfl) (.argFloat (h.at (Unit.distinct x) 12 rfl) (.argFloat (h.at (Unit.distinct x) 13 rfl) (.argFloat (h.at (Unit.distinct x) 14 rfl) (.argInt (c := .h) (h.at (Unit.distinct x) 15 rfl) (.argInt (c := .h) (h.at (Unit.distinct x) 16 rfl) (.argInt (c := .h) (h.at (Unit.distinct x) 17 rfl) (.argInt (c := .h) (h.at (Unit.distinct x) 18 rfl) (.argInt (c := .b) (h.at (Unit.distinct x) 19 rfl) (.argInt (c := .b) (h.at (Unit.distinct x) 20 rfl) (.argInt (c := .h) (h.at (Unit.distinct x) 21 rfl) (.argInt (c := .b) (h.at (Unit.distinct x) 22 rfl) (.argInt (c := .h) (h.at (Unit.distinct x) 23 rfl) (.argInt (c := .b) (h.at (Unit.distinct x) 24 rfl) (.argInt (c := .b) (h.at (Unit.distinct x) 25 rfl) (.starInt (cs1 := [.h, .h]) (h.at (Unit.distinct x) 26 rfl).tuple hs.2.1.symm (.starInt (cs1 := [.h, .h]) (h.at (Unit.distinct x) 27 rfl).tuple hs.2.2.1.symm (.starFloat (n := 2) (h.at (Unit.distinct x) 28 rfl).tuple hs.2.2.2.1.symm (.argInt (c := .b) (h.at (Unit.distinct x) 29 rfl) (.argInt (c := .b) (h.at (Unit.distinct x) 30 rfl) (.argInt (c := .h) (h.at (Unit.distinct x) 31 rfl) (.argInt (c := .b) (h.at (Unit.distinct x) 32 rfl) (.argInt (c := .h) (h.at (Unit.distinct x) 33 rfl) (.argFloat (h.at (Unit.distinct x) 34 rfl) (.argInt (c := .b) (h.at (Unit.distinct x) 35 rfl) (.argInt (c := .b) (h.at (Unit.distinct x) 36 rfl) (.argInt (c := .b) (h.at (Unit.distinct x) 37 rfl) (.argInt (c := .b) (h.at (Unit.distinct x) 38 rfl) (.argInt (c := .b) (h.at (Unit.distinct x) 39 rfl) (.argFloat (h.at (Unit.distinct x) 40 rfl) (.argInt (c := .b) (h.at (Unit.distinct x) 41 rfl) (.argInt (c := .l) (h.at (Unit.distinct x) 42 rfl) (.argInt (c := .l) (h.at (Unit.distinct x) 43 rfl) (.argInt (c := .l) (h.at (Unit.distinct x) 44 rfl) (.argInt (c := .b) (h.at (Unit.distinct x) 45 rfl) (.argInt (c := .b) (h.at (Unit.distinct x) 46 rfl) (.argInt (c := .b) (h.at (Unit.distinct x) 47 rfl) (.argInt (c := .b) (h.at (Unit.distinct x) 48 rfl) (.argInt (c := .b) (h.at (Unit.distinct x) 49 rfl) (.argInt (c := .b) (h.at (Unit.distinct x) 50 rfl) (.argInt (c := .b) (h.at (Unit.distinct x) 51 rfl) (.argInt (c := .b) (h.at (Unit.distinct x) 52 rfl) (.argInt (c := .b) (h.at (Unit.distinct x) 53 rfl) (.argInt (c := .h) (h.at (Unit.distinct x) 54 rfl) (.argInt (c := .b) (h.at (Unit.distinct x) 55 rfl) (.argInt (c := .b) (h.at (Unit.distinct x) 56 rfl) (.argFloat (h.at (Unit.distinct x) 57 rfl) (.argFloat (h.at (Unit.distinct x) 58 rfl) (.argFloat (h.at (Unit.distinct x) 59 rfl) (.argInt (c := .l) (h.at (Unit.distinct x) 60 rfl) (.argInt (c := .l) (h.at (Unit.distinct x) 61 rfl) .nil))))))))))))))))))))))))))))))))))))))))))))))))))))))))))))))).trans (congrArg (structPack _) (by simp only [List.append_assoc, List.cons_append, List.nil_append, List.append_nil]))) <|
    parts_cons (congrArg joinB (
    parts_cons (W.classArray_eq (f := ResourceStorage.object) (h.at (Unit.distinct x) 62 rfl).tuple (by intro _ e; cases e) (fun _ m _ s => ResourceStorage.written (by omega) _ _ s)) <|
    parts_cons (W.int8_eq (h.at (Unit.distinct x) 63 rfl).list.nat) <|
    parts_cons (W.classArray_eq (f := DamageGraphic.object) (h.at (Unit.distinct x) 63 rfl).list (by intro _ e; cases e) (fun _ m _ s => DamageGraphic.written (by omega) _ _ s)) <|
    parts_cons (W.int16_eq (h.at (Unit.distinct x) 64 rfl)) <|
    parts_cons (W.int16_eq (h.at (Unit.distinct x) 65 rfl)) <|
    parts_cons (W.int32_eq (h.at (Unit.distinct x) 66 rfl)) <|
    parts_cons (W.int32_eq (h.at (Unit.distinct x) 67 rfl)) <|
    parts_cons (W.int32_eq (h.at (Unit.distinct x) 68 rfl)) <|
    parts_cons (W.int32_eq (h.at (Unit.distinct x) 69 rfl)) <|
    parts_cons (W.int8_eq (h.at (Unit.distinct x) 70 rfl)) <|
    parts_cons (W.int8_eq (h.at (Unit.distinct x) 71 rfl)) <|
    parts_cons (W.debugString_eq (h.at (Unit.distinct x) 72 rfl)) <|
    parts_cons (W.int16_eq (h.at (Unit.distinct x) 73 rfl)) <|
    parts_cons (W.int16_eq (h.at (Unit.distinct x) 74 rfl)) <|
    parts_cons (rfl) <|
    parts_cons (rfl) <|
    parts_cons (rfl) <|
    parts_cons (rfl) <|
    parts_cons (rfl) <|
    parts_cons (rfl) <|
    parts_cons (rfl) <| rfl)) <| rfl)

theorem Unit.write88_eq {H : Heap} {n : Nat} {ver : Version} (hn : 2 ≤ n) (x : Unit) (hs : x.Sized) {v : HVal} (h : Shows H v (Unit.object false x)) :
    Unit.write88 H (W.toBytes H n) v ver = Unit.toBytes88 ver x := by
  unfold Unit.write88 Unit.toBytes88
  refine bind_eq (W.when2 (W.neInt_eq (h.at (Unit.distinct x) 0 rfl)) (W.geInt_eq (h.at (Unit.distinct x) 0 rfl)) (W.ifNotNone_eq (h.at (Unit.distinct x) 75 rfl) (by intro _ e; cases e) fun y ey e => W.float_eq e)) fun speed => ?_
  refine bind_eq (W.when3 (W.neInt_eq (h.at (Unit.distinct x) 0 rfl)) (W.geInt_eq (h.at (Unit.distinct x) 0 rfl)) (W.geInt_eq (h.at (Unit.distinct x) 0 rfl)) (W.ifNotNone_eq (h.at (Unit.distinct x) 76 rfl) (by intro _ e; cases e) fun y ey e => W.cls_eq (f := DeadFish.object) e (fun _ s => DeadFish.written (by omega) _ _ s))) fun dead_fish => ?_
  refine bind_eq (W.when3 (W.neInt_eq (h.at (Unit.distinct x) 0 rfl)) (W.geInt_eq (h.at (Unit.distinct x) 0 rfl)) (W.geInt_eq (h.at (Unit.distinct x) 0 rfl)) (W.ifNotNone_eq (h.at (Unit.distinct x) 77 rfl) (by intro _ e; cases e) fun y ey e => W.cls_eq (f := Bird.object) e (fun _ s => Bird.written (by omega) _ _ s))) fun bird => ?_
  refine bind_eq (W.when3 (W.neInt_eq (h.at (Unit.distinct x) 0 rfl)) (W.geInt_eq (h.at (Unit.distinct x) 0 rfl)) (W.geInt_eq (h.at (Unit.distinct x) 0 rfl)) (W.ifNotNone_eq (h.at (Unit.distinct x) 78 rfl) (by intro _ e; cases e) fun y ey e => W.cls_eq (f := Type50.object) e (fun _ s => Type50.written (by omega) _ _ s))) fun type_50 => ?_
  refine bind_eq (W.when3 (W.neInt_eq (h.at (Unit.distinct x) 0 rfl)) (W.geInt_eq (h.at (Unit.distinct x) 0 rfl)) (W.eqInt_eq (h.at (Unit.distinct x) 0 rfl)) (W.ifNotNone_eq (h.at (Unit.distinct x) 79 rfl) (by intro _ e; cases e) fun y ey e => W.cls_eq (f := Projectile.object) e (fun _ s => Projectile.written (by omega) _ _ s))) fun projectile => ?_
  refine bind_eq (W.when3 (W.neInt_eq (h.at (Unit.distinct x) 0 rfl)) (W.geInt_eq (h.at (Unit.distinct x) 0 rfl)) (W.geInt_eq (h.at (Unit.distinct x) 0 rfl)) (W.ifNotNone_eq (h.at (Unit.distinct x) 80 rfl) (by intro _ e; cases e) fun y ey e => W.cls_eq (f := Creatable.object false) e (fun _ s => Creatable.written (by omega) _ (hs.2.2.2.2.1 _ ey) _ s))) fun creatable => ?_
  refine bind_eq (W.when3 (W.neInt_eq (h.at (Unit.distinct x) 0 rfl)) (W.geInt_eq (h.at (Unit.distinct x) 0 rfl)) (W.eqInt_eq (h.at (Unit.distinct x) 0 rfl)) (W.ifNotNone_eq (h.at (Unit.distinct x) 81 rfl) (by intro _ e; cases e) fun y ey e => W.cls_eq (f := Building.object) e (fun _ s => Building.written (by omega) _ (hs.2.2.2.2.2 _ ey) _ s))) fun building => ?_
  exact congrArg joinB (
    parts_cons ((W.pack_eq (by decide +kernel) (.argInt (c := .b) (h.at (Unit.distinct x) 0 rfl) (.argInt (c := .h) (h.at (Unit.distinct x) 1 rfl) (.argInt (c := .l) (h.at (Unit.distinct x) 2 rfl) (.argInt (c := .l) (h.at (Unit.distinct x) 3 rfl) (.argInt (c := .h) (h.at (Unit.distinct x) 4 rfl) (.starInt (cs1 := [.h, .h]) (h.at (Unit.distinct x) 5 rfl).tuple hs.1.symm (.argInt (c := .h) (h.at (Unit.distinct x) 6 rfl) (.argInt (c := .h) (h.at (Unit.distinct x) 7 rfl) (.argInt (c := .b) (h.at (Unit.distinct x) 8 rfl) (.argInt (c := .h) (h.at (Unit.distinct x) 9 rfl) (.argFloat (h.at (Unit.distinct x) 10 rfl) (.argInt (c := .b) (h.at (Unit.distinct x) 11 rfl) (.argFloat (h.at (Unit.distinct x) 12 rfl) (.argFloat (h.at (Unit.distinct x) 13 rfl) (.argFloat (h.at (Unit.distinct x) 14 rfl) (.argInt (c := .h) (h.at (Unit.distinct x) 15 rfl) (.argInt (c := .h) (h.at (Unit.distinct x) 16 rfl) (.argInt (c := .h) (h.at (Unit.distinct x) 17 rfl) (.argInt (c := .h) (h.at (Unit.distinct x) 18 rfl) (.argInt (c := .b) (h.at (Unit.distinct x) 19 rfl) (.argInt (c := .b) (h.at (Unit.distinct x) 20 rfl) (.argInt (c := .h) (h.at (Unit.distinct x) 21 rfl) (.argInt (c := .b) (h.at (Unit.distinct x) 22 rfl) (.argInt (c := .h) (h.at (Unit.distinct x) 23 rfl) (.argInt (c := .b) (h.at (Unit.distinct x) 24 rfl) (.argInt (c := .b) (h.at (Unit.distinct x) 25 rfl) (.starInt (cs1 := [.h, .h]) (h.at (Unit.distinct x) 26 rfl).tuple hs.2.1.symm (.starInt (cs1 := [.h, .h]) (h.at (Unit.distinct x) 27 rfl).tuple hs.2.2.1.symm (.starFloat (n := 2) (h.at (Unit.distinct x) 28 rfl).tuple hs.2.2.2.1.symm (.argInt (c := .b) (h.at (Unit.distinct x) 29 rfl) (.argInt (c := .b) (h.at (Unit.distinct x) 30 rfl) (.argInt (c := .h) (h.at (Unit.distinct x) 31 rfl) (.argInt (c := .b) (h.at (Unit.distinct x) 32 rfl) (.argInt (c := .h) (h.at (Unit.distinct x) 33 rfl) (.argFloat (h.at (Unit.distinct x) 34 rfl) (.argInt (c := .b) (h.at (Unit.distinct x) 35 rfl) (.argInt (c := .b) (h.at (Unit.distinct x) 36 rfl) (.argInt (c := .b) (h.at (Unit.distinct x) 37 rfl) (.argInt (c := .b) (h.at (Unit.distinct x) 38 rfl) (.argInt (c := .b) (h.at (Unit.distinct x) 39 rfl) (.argFloat (h.at (Unit.distinct x) 40 rfl) (.argInt (c := .b) (h.at (Unit.distinct x) 41 rfl) (.argInt (c := .l) (h.at (Unit.distinct x) 42 rfl) (.argInt (c := .l) (h.at (Unit.distinct x) 43 rfl) (.argInt (c := .b) (h.at (Unit.distinct x) 45 rfl) (.argInt (c := .b) (h.at (Unit.distinct x) 46 rfl) (.argInt (c := .b) (h.at (Unit.distinct x) 47 rfl) (.argInt (c := .b) (h.at (Unit.distinct x) 48 rfl) (.argInt (c := .b) (h.at (Unit.distinct x) 49 rfl) (.argInt (c := .b) (h.at (Unit.distinct x) 50 rfl) (.argInt (c := .b) (h.at (Unit.distinct x) 51 rfl) (.argInt (c := .b) (h.at (Unit.distinct x) 52 rfl) (.argInt (c := .b) (h.at (Unit.distinct x) 53 rfl) (.argInt (c := .h) (h.at (Unit.distinct x) 54 rfl) (.argInt (c := .b) (h.at (Unit.distinct x) 55 rfl) (.argInt (c := .b) (h.at (Unit.distinct x) 56 rfl) (.argFloat (h.at (Unit.distinct x) 57 rfl) (.argFloat (h.at (Unit.distinct x) 58 rfl) (.argFloat (h.at (Unit.distinct x) 59 rfl) (.argInt (c := .l) (h.at (Unit.distinct x) 60 rfl) (.argInt (c := .l) (h.at (Unit.distinct x) 61 rfl) .nil)))))))))))))))))))))))))))))))))))))))))))))))))))))))))))))).trans (congrArg (structPack _) (by simp only [List.append_assoc, List.cons_append, List.nil_append, List.append_nil]))) <|
    parts_cons (congrArg joinB (
    parts_cons (W.classArray_eq (f := ResourceStorage.object) (h.at (Unit.distinct x) 62 rfl).tuple (by intro _ e; cases e) (fun _ m _ s => ResourceStorage.written (by omega) _ _ s)) <|
    parts_cons (W.int8_eq (h.at (Unit.distinct x) 63 rfl).list.nat) <|
    parts_cons (W.classArray_eq (f := DamageGraphic.object) (h.at (Unit.distinct x) 63 rfl).list (by intro _ e; cases e) (fun _ m _ s => DamageGraphic.written (by omega) _ _ s)) <|
    parts_cons (W.int16_eq (h.at (Unit.distinct x) 64 rfl)) <|
    parts_cons (W.int16_eq (h.at (Unit.distinct x) 65 rfl)) <|
    parts_cons (W.int32_eq (h.at (Unit.distinct x) 66 rfl)) <|
    parts_cons (W.int32_eq (h.at (Unit.distinct x) 67 rfl)) <|
    parts_cons (W.int32_eq (h.at (Unit.distinct x) 68 rfl)) <|
    parts_cons (W.int32_eq (h.at (Unit.distinct x) 69 rfl)) <|
    parts_cons (W.int8_eq (h.at (Unit.distinct x) 70 rfl)) <|
    parts_cons (W.int8_eq (h.at (Unit.distinct x) 71 rfl)) <|
    parts_cons (W.debugString_eq (h.at (Unit.distinct x) 72 rfl)) <|
    parts_cons (W.int16_eq (h.at (Unit.distinct x) 73 rfl)) <|
    parts_cons (W.int16_eq (h.at (Unit.distinct x) 74 rfl)) <|
    parts_cons (rfl) <|
    parts_cons (rfl) <|
    parts_cons (rfl) <|
    parts_cons (rfl) <|
    parts_cons (rfl) <|
    parts_cons (rfl) <|
    parts_cons (rfl) <| rfl)) <| rfl)

theorem Unit.write_eq {H : Heap} {n : Nat} {ver : Version} (hn : 2 ≤ n) (x : Unit) (hs : x.Sized) {v : HVal} (h : Shows H v (Unit.object false x)) :
    Unit.write H (W.toBytes H n) v ver = Unit.toBytes ver x := by
  unfold Unit.write Unit.toBytes
  split
  · exact Unit.write88_eq hn x hs h
  exact Unit.write84_eq hn x hs h

theorem Unit.written {H : Heap} {n : Nat} {ver : Version} (hn : 3 ≤ n) (x : Unit) (hs : x.Sized) (v : HVal) (h : Shows H v (Unit.object false x)) :
    W.toBytes H n v ver = Unit.toBytes ver x := by
  obtain ⟨m, rfl⟩ : ∃ m, n = m + 1 := ⟨n - 1, by omega⟩
  rw [Shows.dispatch (m := Unit.write) h (by rfl)]
  exact Unit.write_eq (by omega) x hs h

theorem UnitHeaders.distinct (x : UnitHeaders) : ((UnitHeaders.object x).attrsOf.map fun p => PyStr.hash p.1).Nodup := by
  have e : ([lit "exists", lit "task_list"] : List PyStr).map PyStr.hash = [39309498493619, 89657105614046914001] := by
    decide +kernel
  have e' : ((UnitHeaders.object x).attrsOf.map fun p => PyStr.hash p.1) = [39309498493619, 89657105614046914001] := e
  rw [e']
  decide +kernel

theorem UnitHeaders.write_eq {H : Heap} {n : Nat} {ver : Version} (hn : 1 ≤ n) (x : UnitHeaders) {v : HVal} (h : Shows H v (UnitHeaders.object x)) :
    UnitHeaders.write H (W.toBytes H n) v ver = UnitHeaders.toBytes ver x := by
  unfold UnitHeaders.write UnitHeaders.toBytes
  refine congrArg joinB (parts_cons (W.int8_eq (h.at (UnitHeaders.distinct x) 0 rfl)) <| parts_cons ?_ <| parts_cons ?_ rfl)
  · refine W.when1 ?_ (W.ifNotNone_eq (h.at (UnitHeaders.distinct x) 1 rfl) (by intro _ e; cases e) fun y _ e => W.int16_eq e.list.nat)
    rw [(h.at (UnitHeaders.distinct x) 0 rfl).int]
    by_cases h0 : x.exists_ = 0 <;> simp [W.truthy, Functor.map, Except.map, h0]
  · refine W.when1 ?_ (W.ifNotNone_eq (h.at (UnitHeaders.distinct x) 1 rfl) (by intro _ e; cases e) fun y _ e =>
      W.classArray_eq (f := Task.object) e.list (by intro _ e; cases e) (fun _ m _ s => Task.written (by omega) _ _ s))
    rw [(h.at (UnitHeaders.distinct x) 0 rfl).int]
    by_cases h0 : x.exists_ = 0 <;> simp [W.truthy, Functor.map, Except.map, h0]

theorem UnitHeaders.written {H : Heap} {n : Nat} {ver : Version} (hn : 2 ≤ n) (x : UnitHeaders) (v : HVal) (h : Shows H v (UnitHeaders.object x)) :
    W.toBytes H n v ver = UnitHeaders.toBytes ver x := by
  obtain ⟨m, rfl⟩ : ∃ m, n = m + 1 := ⟨n - 1, by omega⟩
  rw [Shows.dispatch (m := UnitHeaders.write) h (by rfl)]
  exact UnitHeaders.write_eq (by omega) x h

theorem Civ.distinct (x : Civ) : ((Civ.object false x).attrsOf.map fun p => PyStr.hash p.1).Nodup := by
  have e : ([lit "player_type", lit "name", lit "tech_tree_id", lit "team_bonus_id", lit "resources", lit "icon_set", lit "units"] : List PyStr).map PyStr.hash = [1532775507734697742409305, 2310468454, 201563103678418960329214434, 26404763661915191675132524226, 89486293618406845374, 677132651917810739, 304762025540] := by
    decide +kernel
  have e' : ((Civ.object false x).attrsOf.map fun p => PyStr.hash p.1) = [1532775507734697742409305, 2310468454, 201563103678418960329214434, 26404763661915191675132524226, 89486293618406845374, 677132651917810739, 304762025540] := e
  rw [e']
  decide +kernel

theorem Civ.write_eq {H : Heap} {n : Nat} {ver : Version} (hn : 3 ≤ n) (x : Civ) (hs : x.Sized) {v : HVal} (h : Shows H v (Civ.object false x)) :
    Civ.write H (W.toBytes H n) v ver = Civ.toBytes ver x := by
  unfold Civ.write Civ.toBytes
  exact congrArg joinB (
    parts_cons (W.int8_eq (h.at (Civ.distinct x) 0 rfl)) <|
    parts_cons (W.debugString_eq (h.at (Civ.distinct x) 1 rfl)) <|
    parts_cons (W.int16_eq (h.at (Civ.distinct x) 4 rfl).list.nat) <|
    parts_cons (W.int16_eq (h.at (Civ.distinct x) 2 rfl)) <|
    parts_cons (W.int16_eq (h.at (Civ.distinct x) 3 rfl)) <|
    parts_cons (W.floatArray_eq (h.at (Civ.distinct x) 4 rfl).list) <|
    parts_cons (W.int8_eq (h.at (Civ.distinct x) 5 rfl)) <|
    parts_cons (W.int16_eq (h.at (Civ.distinct x) 6 rfl).list.nat) <|
    parts_cons ((W.pointers_eq (h.at (Civ.distinct x) 6 rfl).list (by intro _ e; cases e)).trans (congrArg writeInt32Array (List.map_congr_left fun g _ => by cases g <;> rfl))) <|
    parts_cons (W.classArrayOpt_eq (f := Unit.object false) (h.at (Civ.distinct x) 6 rfl).list (by intro _ e; cases e) (fun _ m _ s => Unit.written (by omega) _ (hs _ m) _ s)) <| rfl)

theorem Civ.written {H : Heap} {n : Nat} {ver : Version} (hn : 4 ≤ n) (x : Civ) (hs : x.Sized) (v : HVal) (h : Shows H v (Civ.object false x)) :
    W.toBytes H n v ver = Civ.toBytes ver x := by
  obtain ⟨m, rfl⟩ : ∃ m, n = m + 1 := ⟨n - 1, by omega⟩
  rw [Shows.dispatch (m := Civ.write) h (by rfl)]
  exact Civ.write_eq (by omega) x hs h

theorem DatFile.distinct (x : DatFile) : ((DatFile.object false x).attrsOf.map fun p => PyStr.hash p.1).Nodup := by
  have e : ([lit "version", lit "float_ptr_terrain_tables", lit "terrain_pass_graphic_pointers", lit "terrain_restrictions", lit "player_colours", lit "sounds", lit "graphics", lit "terrain_block", lit "random_maps", lit "effects", lit "unit_headers", lit "civs", lit "techs", lit "time_slice", lit "unit_kill_rate", lit "unit_kill_total", lit "unit_hit_point_rate", lit "unit_hit_point_total", lit "razing_kill_rate", lit "razing_kill_total", lit "tech_tree"] : List PyStr).map PyStr.hash = [5234730466123601, 5078880369371064861764635592845017093716301438855390, 198620207947889430066621849392172598412758569953462994312427146, 17481623850186865955982546387565547159421880, 3445818823958804296127205041580, 39846987738635, 675883795867379006, 26404789021310933591880210472, 1535628397194638391629796, 5148848956585843, 201771545672102605179206442, 2285877934, 304447188262, 11745770674370755583491, 3462601495279215702241169584301, 453600795881577256993593836016131, 133585398552651591059711525263476819217647, 17499687210397358428822209809515463937984457, 59243800136942397731895611544916064, 7760937817939454102878325113004477084, 89659672886203877124] := by
    decide +kernel
  have e' : ((DatFile.object false x).attrsOf.map fun p => PyStr.hash p.1) = [5234730466123601, 5078880369371064861764635592845017093716301438855390, 198620207947889430066621849392172598412758569953462994312427146, 17481623850186865955982546387565547159421880, 3445818823958804296127205041580, 39846987738635, 675883795867379006, 26404789021310933591880210472, 1535628397194638391629796, 5148848956585843, 201771545672102605179206442, 2285877934, 304447188262, 11745770674370755583491, 3462601495279215702241169584301, 453600795881577256993593836016131, 133585398552651591059711525263476819217647, 17499687210397358428822209809515463937984457, 59243800136942397731895611544916064, 7760937817939454102878325113004477084, 89659672886203877124] := e
  rw [e']
  decide +kernel

theorem DatFile.write_eq {H : Heap} {n : Nat} {ver : Version} (hn : 4 ≤ n) (x : DatFile) (hs : x.Sized) {v : HVal} (h : Shows H v (DatFile.object false x)) :
    DatFile.write H (W.toBytes H n) v ver = x.toBytes := by
  unfold DatFile.write DatFile.toBytes DatFile.toBytesGiven
  rw [(h.at (DatFile.distinct x) 0 rfl).str]
  have ht := (h.at (DatFile.distinct x) 3 rfl).list
  simp only [W.version, bind, Except.bind]
  cases hv : Version.ofStr x.version with
  | error e => rfl
  | ok version =>
  dsimp only
  rw [ht.len, (h.at (DatFile.distinct x) 1 rfl).list.len, (h.at (DatFile.distinct x) 2 rfl).list.len]
  simp only [List.length_map]
  split
  · rfl
  have hu : ∃ r, W.attr H v (lit "terrain_restrictions") = .ok r ∧
      (if W.truthy H r = true then W.len H (W.attrOf H (W.item H (W.attr H v (lit "terrain_restrictions")) 0) (lit "passable_buildable_dmg_multiplier"))
        else .ok 0) = .ok x.terrains_used.toNat ∧ (x.terrains_used.toNat : Int) = x.terrains_used := by
    obtain ⟨r, hr, hsr⟩ := (h.at (DatFile.distinct x) 3 rfl)
    refine ⟨r, hr, ?_⟩
    unfold DatFile.terrains_used
    cases htl : x.terrain_restrictions with
    | nil =>
      rw [htl] at hsr
      cases hsr with
      | list hc hi =>
        cases hi
        simp [W.truthy, W.cell, hc]
    | cons y ys =>
      rw [htl] at ht
      rw [htl] at hsr
      have h_len := (ht.first.at (TerrainRestriction.distinct _) 0 rfl).list.len
      rw [h_len]
      cases hsr with
      | list hc hi =>
        cases hi
        simp [W.truthy, W.cell, hc]
  obtain ⟨r, hr, hu1, hu2⟩ := hu
  rw [hr] at hu1 ⊢
  dsimp only
  have h_terrain_restrictions_size := Ev.ok (H := H) (Shows.int (H := H) x.terrain_restrictions.length)
  have h_terrains_used := Ev.ok (H := H) (Shows.int (H := H) x.terrains_used)
  split at hu1
  · rw [if_pos ‹_›, hu1]
    dsimp only
    rw [hu2, ← hr, ← (h.at (DatFile.distinct x) 0 rfl).str]
    exact congrArg joinB (
    parts_cons (W.string_eq (h.at (DatFile.distinct x) 0 rfl)) <|
    parts_cons (W.int16_eq h_terrain_restrictions_size) <|
    parts_cons (W.int16_eq h_terrains_used) <|
    parts_cons (W.int32Array_eq (h.at (DatFile.distinct x) 1 rfl).list) <|
    parts_cons (W.int32Array_eq (h.at (DatFile.distinct x) 2 rfl).list) <|
    parts_cons (W.classArray_eq (f := TerrainRestriction.object) (h.at (DatFile.distinct x) 3 rfl).list (by intro _ e; cases e) (fun _ m _ s => TerrainRestriction.written (by omega) _ _ s)) <|
    parts_cons (W.int16_eq (h.at (DatFile.distinct x) 4 rfl).list.nat) <|
    parts_cons (W.classArray_eq (f := PlayerColour.object) (h.at (DatFile.distinct x) 4 rfl).list (by intro _ e; cases e) (fun _ m _ s => PlayerColour.written (by omega) _ _ s)) <|
    parts_cons (W.int16_eq (h.at (DatFile.distinct x) 5 rfl).list.nat) <|
    parts_cons (W.classArray_eq (f := Sound.object) (h.at (DatFile.distinct x) 5 rfl).list (by intro _ e; cases e) (fun _ m _ s => Sound.written (by omega) _ _ s)) <|
    parts_cons (W.int16_eq (h.at (DatFile.distinct x) 6 rfl).list.nat) <|
    parts_cons ((W.pointers_eq (h.at (DatFile.distinct x) 6 rfl).list (by intro _ e; cases e)).trans (congrArg writeInt32Array (List.map_congr_left fun g _ => by cases g <;> rfl))) <|
    parts_cons (W.classArrayOpt_eq (f := Graphic.object) (h.at (DatFile.distinct x) 6 rfl).list (by intro _ e; cases e) (fun _ m _ s => Graphic.written (by omega) _ _ s)) <|
    parts_cons (W.cls_eq (f := TerrainBlock.object) (h.at (DatFile.distinct x) 7 rfl) (fun _ s => TerrainBlock.written (by omega) _ _ s)) <|
    parts_cons (W.cls_eq (f := RandomMaps.object) (h.at (DatFile.distinct x) 8 rfl) (fun _ s => RandomMaps.written (by omega) _ _ s)) <|
    parts_cons (W.int32_eq (h.at (DatFile.distinct x) 9 rfl).list.nat) <|
    parts_cons (W.classArray_eq (f := Effect.object) (h.at (DatFile.distinct x) 9 rfl).list (by intro _ e; cases e) (fun _ m _ s => Effect.written (by omega) _ _ s)) <|
    parts_cons (W.int32_eq (h.at (DatFile.distinct x) 10 rfl).list.nat) <|
    parts_cons (W.classArray_eq (f := UnitHeaders.object) (h.at (DatFile.distinct x) 10 rfl).list (by intro _ e; cases e) (fun _ m _ s => UnitHeaders.written (by omega) _ _ s)) <|
    parts_cons (W.int16_eq (h.at (DatFile.distinct x) 11 rfl).list.nat) <|
    parts_cons (W.classArray_eq (f := Civ.object false) (h.at (DatFile.distinct x) 11 rfl).list (by intro _ e; cases e) (fun _ m _ s => Civ.written (by omega) _ (hs _ m) _ s)) <|
    parts_cons (W.int16_eq (h.at (DatFile.distinct x) 12 rfl).list.nat) <|
    parts_cons (W.classArray_eq (f := Tech.object) (h.at (DatFile.distinct x) 12 rfl).list (by intro _ e; cases e) (fun _ m _ s => Tech.written (by omega) _ _ s)) <|
    parts_cons (W.int32_eq (h.at (DatFile.distinct x) 13 rfl)) <|
    parts_cons (W.int32_eq (h.at (DatFile.distinct x) 14 rfl)) <|
    parts_cons (W.int32_eq (h.at (DatFile.distinct x) 15 rfl)) <|
    parts_cons (W.int32_eq (h.at (DatFile.distinct x) 16 rfl)) <|
    parts_cons (W.int32_eq (h.at (DatFile.distinct x) 17 rfl)) <|
    parts_cons (W.int32_eq (h.at (DatFile.distinct x) 18 rfl)) <|
    parts_cons (W.int32_eq (h.at (DatFile.distinct x) 19 rfl)) <|
    parts_cons (W.cls_eq (f := TechTree.object) (h.at (DatFile.distinct x) 20 rfl) (fun _ s => TechTree.written (by omega) _ _ s)) <| rfl)
  · rw [if_neg ‹_›]
    have e0 : ((0 : Nat) : Int) = x.terrains_used := by rw [Except.ok.inj hu1, hu2]
    rw [e0, ← hr, ← (h.at (DatFile.distinct x) 0 rfl).str]
    exact congrArg joinB (
    parts_cons (W.string_eq (h.at (DatFile.distinct x) 0 rfl)) <|
    parts_cons (W.int16_eq h_terrain_restrictions_size) <|
    parts_cons (W.int16_eq h_terrains_used) <|
    parts_cons (W.int32Array_eq (h.at (DatFile.distinct x) 1 rfl).list) <|
    parts_cons (W.int32Array_eq (h.at (DatFile.distinct x) 2 rfl).list) <|
    parts_cons (W.classArray_eq (f := TerrainRestriction.object) (h.at (DatFile.distinct x) 3 rfl).list (by intro _ e; cases e) (fun _ m _ s => TerrainRestriction.written (by omega) _ _ s)) <|
    parts_cons (W.int16_eq (h.at (DatFile.distinct x) 4 rfl).list.nat) <|
    parts_cons (W.classArray_eq (f := PlayerColour.object) (h.at (DatFile.distinct x) 4 rfl).list (by intro _ e; cases e) (fun _ m _ s => PlayerColour.written (by omega) _ _ s)) <|
    parts_cons (W.int16_eq (h.at (DatFile.distinct x) 5 rfl).list.nat) <|
    parts_cons (W.classArray_eq (f := Sound.object) (h.at (DatFile.distinct x) 5 rfl).list (by intro _ e; cases e) (fun _ m _ s => Sound.written (by omega) _ _ s)) <|
    parts_cons (W.int16_eq (h.at (DatFile.distinct x) 6 rfl).list.nat) <|
    parts_cons ((W.pointers_eq (h.at (DatFile.distinct x) 6 rfl).list (by intro _ e; cases e)).trans (congrArg writeInt32Array (List.map_congr_left fun g _ => by cases g <;> rfl))) <|
    parts_cons (W.classArrayOpt_eq (f := Graphic.object) (h.at (DatFile.distinct x) 6 rfl).list (by intro _ e; cases e) (fun _ m _ s => Graphic.written (by omega) _ _ s)) <|
    parts_cons (W.cls_eq (f := TerrainBlock.object) (h.at (DatFile.distinct x) 7 rfl) (fun _ s => TerrainBlock.written (by omega) _ _ s)) <|
    parts_cons (W.cls_eq (f := RandomMaps.object) (h.at (DatFile.distinct x) 8 rfl) (fun _ s => RandomMaps.written (by omega) _ _ s)) <|
    parts_cons (W.int32_eq (h.at (DatFile.distinct x) 9 rfl).list.nat) <|
    parts_cons (W.classArray_eq (f := Effect.object) (h.at (DatFile.distinct x) 9 rfl).list (by intro _ e; cases e) (fun _ m _ s => Effect.written (by omega) _ _ s)) <|
    parts_cons (W.int32_eq (h.at (DatFile.distinct x) 10 rfl).list.nat) <|
    parts_cons (W.classArray_eq (f := UnitHeaders.object) (h.at (DatFile.distinct x) 10 rfl).list (by intro _ e; cases e) (fun _ m _ s => UnitHeaders.written (by omega) _ _ s)) <|
    parts_cons (W.int16_eq (h.at (DatFile.distinct x) 11 rfl).list.nat) <|
    parts_cons (W.classArray_eq (f := Civ.object false) (h.at (DatFile.distinct x) 11 rfl).list (by intro _ e; cases e) (fun _ m _ s => Civ.written (by omega) _ (hs _ m) _ s)) <|
    parts_cons (W.int16_eq (h.at (DatFile.distinct x) 12 rfl).list.nat) <|
    parts_cons (W.classArray_eq (f := Tech.object) (h.at (DatFile.distinct x) 12 rfl).list (by intro _ e; cases e) (fun _ m _ s => Tech.written (by omega) _ _ s)) <|
    parts_cons (W.int32_eq (h.at (DatFile.distinct x) 13 rfl)) <|
    parts_cons (W.int32_eq (h.at (DatFile.distinct x) 14 rfl)) <|
    parts_cons (W.int32_eq (h.at (DatFile.distinct x) 15 rfl)) <|
    parts_cons (W.int32_eq (h.at (DatFile.distinct x) 16 rfl)) <|
    parts_cons (W.int32_eq (h.at (DatFile.distinct x) 17 rfl)) <|
    parts_cons (W.int32_eq (h.at (DatFile.distinct x) 18 rfl)) <|
    parts_cons (W.int32_eq (h.at (DatFile.distinct x) 19 rfl)) <|
    parts_cons (W.cls_eq (f := TechTree.object) (h.at (DatFile.distinct x) 20 rfl) (fun _ s => TechTree.written (by omega) _ _ s)) <| rfl)

theorem DatFile.written {H : Heap} {n : Nat} {ver : Version} (hn : 5 ≤ n) (x : DatFile) (hs : x.Sized) (v : HVal) (h : Shows H v (DatFile.object false x)) :
    W.toBytes H n v ver = x.toBytes := by
  obtain ⟨m, rfl⟩ : ∃ m, n = m + 1 := ⟨n - 1, by omega⟩
  rw [Shows.dispatch (m := DatFile.write) h (by rfl)]
  exact DatFile.write_eq (by omega) x hs h

end Genie
