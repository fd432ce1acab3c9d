import Verif.Proof.Clean
/-!
# C29: counts that are stored, not derived

`MapInfo` has attributes for the sizes of its four lists, and `Graphic` one for the number of its angle sounds; the writers write these
attributes and do not compare them with the lists.
-/

namespace Genie
open Layout

/-- All values of the map are in range; the size attributes may differ from the lengths of the lists. -/
structure MapInfo.InRange (v : Version) (x : MapInfo) : Prop where
  rest : MapInfo.WF v { x with
    map_lands_size := x.map_lands.length, map_terrains_size := x.map_terrains.length,
    map_units_size := x.map_units.length, map_elevations_size := x.map_elevations.length }
  map_lands_size : IsU32 x.map_lands_size
  map_terrains_size : IsU32 x.map_terrains_size
  map_units_size : IsU32 x.map_units_size
  map_elevations_size : IsU32 x.map_elevations_size

/-- The sizes are the lengths. -/
def MapInfo.SizesMatch (x : MapInfo) : Prop :=
  x.map_lands_size = x.map_lands.length ∧ x.map_terrains_size = x.map_terrains.length ∧
  x.map_units_size = x.map_units.length ∧ x.map_elevations_size = x.map_elevations.length

theorem MapInfo.InRange.wf_iff {v : Version} {x : MapInfo} (h : x.InRange v) : MapInfo.WF v x ↔ x.SizesMatch := by
  constructor
  · intro k; exact ⟨k.map_lands_size, k.map_terrains_size, k.map_units_size, k.map_elevations_size⟩
  · rintro ⟨h1, h2, h3, h4⟩
    exact { h.rest with map_lands_size := h1, map_terrains_size := h2, map_units_size := h3, map_elevations_size := h4 }

theorem MapInfo.InRange.clean {v : Version} {x : MapInfo} (h : x.InRange v) : causes (x.layout v) = [] := by
  have h0 := RecordClass.clean .MapInfo h.rest
  simp only [RecordClass.layout, MapInfo.layout, clean_cons] at h0 ⊢
  simp only [h0, clean_u32, h.map_lands_size, h.map_terrains_size, h.map_units_size, h.map_elevations_size, clean_fnil, and_self]

/-- The map is written whatever its size attributes say. -/
theorem C29_written_unchecked (v : Version) (x : MapInfo) (h : x.InRange v) : ∃ bs, MapInfo.toBytes v x = .ok bs :=
  ⟨_, (MapInfo.writes v x).ok_of h.clean⟩

/-- What is written as size of the first list, in the four bytes at offset 40, is the attribute. -/
theorem C29_size_written (v : Version) (x : MapInfo) (bs : Bytes) (hw : MapInfo.toBytes v x = .ok bs) :
    (bs.drop 40).take 4 = natLE 4 (x.map_lands_size % (256 : Int) ^ 4).toNat := by
  obtain ⟨-, rfl⟩ := (MapInfo.writes v x).ok bs hw
  have e : ∀ w s i, (Item.int w s i).bytes = natLE w (i % (256 : Int) ^ w).toNat := fun _ _ _ => rfl
  simp only [MapInfo.layout, List.flatten_cons, layoutBytes_append, i32, u32]
  have e1 : ∀ i : Item, layoutBytes [i] = i.bytes := fun i => by simp [layoutBytes]
  simp only [e1, e]
  have drop4 : ∀ k n (t : Bytes), ((natLE 4 k) ++ t).drop (n + 4) = t.drop n := by
    intro k n t
    rw [List.drop_append, natLE_len, List.drop_eq_nil_of_le (by rw [natLE_len]; omega), List.nil_append]
    congr 1
  rw [drop4 _ 36, drop4 _ 32, drop4 _ 28, drop4 _ 24, drop4 _ 20, drop4 _ 16, drop4 _ 12, drop4 _ 8, drop4 _ 4, drop4 _ 0, List.drop_zero]
  exact List.take_left' (natLE_len _ _)

/-- Reading the bytes back gives the map exactly if the sizes match. -/
theorem C29_read_back_iff (v : Version) (x : MapInfo) (h : x.InRange v) (bs : Bytes) (hw : MapInfo.toBytes v x = .ok bs) :
    (∃ h', MapInfo.fromBytes { ByteHandler.new bs with version := v } = .ok (x, h')) ↔ x.SizesMatch :=
  (C13_record_round_trips_iff .MapInfo v x bs hw).trans h.wf_iff

/-- No read ever returns a map whose sizes do not match. -/
theorem C29_parsed_sizes_match (h h' : ByteHandler) (x : MapInfo) (hr : MapInfo.fromBytes h = .ok (x, h')) : x.SizesMatch := by
  have k := C13_record_parsed_wellformed .MapInfo h h' x hr
  exact ⟨k.map_lands_size, k.map_terrains_size, k.map_units_size, k.map_elevations_size⟩

theorem DatFile.clean_randomMaps {v : Version} {d : DatFile} (hd : DatFile.WFAt v d) {r : RandomMaps} (hr : causes (r.layout v) = []) :
    causes (DatFile.layoutAt v { d with random_maps := r }) = [] := by
  have h0 := DatFile.clean hd
  simp only [DatFile.layoutAt, clean_cons] at h0 ⊢
  simp only [h0, hr, true_and, and_true]
  exact h0.2.2.2.2.1

/-- Inside a file: well-formed but for such maps, it is saved without any exception, and comes back unchanged exactly if
all sizes match. -/
theorem C29_file (v : Version) (d : DatFile) (hd : DatFile.WFAt v d) (p : Int) (hp : IsI32 p) (l1 l2 : List MapInfo)
    (hl : l1.length = l2.length) (hn : l1.length ≤ 4294967295) (h : ∀ x ∈ l1 ++ l2, x.InRange v) :
    let e := { d with random_maps := { random_maps_ptr := p, map_info_1 := l1, map_info_2 := l2 } }
    ∃ bs, DatFile.toBytes e = .ok bs ∧
      ((∃ h', DatFile.fromBytes (ByteHandler.new bs) = .ok (e, h')) ↔ ∀ x ∈ l1 ++ l2, x.SizesMatch) := by
  intro e
  have h1 : causes (e.layoutAt v) = [] := by
    refine DatFile.clean_randomMaps hd ?_
    unfold RandomMaps.layout
    rw [clean_cons, clean_cons, clean_cons, clean_cons, clean_cons, causes_requires]
    refine ⟨hl, ?_, clean_i32.2 hp, clean_each.2 fun x hx => (h x (by simp [hx])).clean, clean_each.2 fun x hx => (h x (by simp [hx])).clean, rfl⟩
    refine clean_count.2 (fits_u32.2 ?_)
    unfold IsU32
    dsimp only
    omega
  obtain ⟨bs, hb⟩ : ∃ bs, DatFile.toBytes e = .ok bs := ⟨_, (DatFile.writesAt (x := e) (versionNames_spec hd.version).1).ok_of h1⟩
  refine ⟨bs, hb, (C13_round_trips_iff e bs hb).trans ?_⟩
  constructor
  · rintro ⟨w, hw⟩ x hx
    have k : MapInfo.WF w x := by
      rcases List.mem_append.1 hx with hx | hx
      · exact hw.random_maps.map_info_1.2 x hx
      · exact hw.random_maps.map_info_2.2 x hx
    exact ⟨k.map_lands_size, k.map_terrains_size, k.map_units_size, k.map_elevations_size⟩
  · intro hm
    refine ⟨v, { hd with random_maps := { random_maps_ptr := hp, map_info_1 := ⟨hn, fun x hx => ?_⟩, map_info_2 := ⟨hl.symm, fun x hx => ?_⟩ } }⟩
    · have := List.mem_append_left l2 hx
      exact (h x this).wf_iff.2 (hm x this)
    · have := List.mem_append_right l1 hx
      exact (h x this).wf_iff.2 (hm x this)

/-- Likewise the angle sounds of a graphic are written, however many there are and whatever `angle_sounds_used` and `angle_count` say;
they come back exactly if their number is what these two say. -/
theorem C29_angle_sounds (v : Version) (x : Graphic) (hx : Graphic.WF v x) (l : List GraphicAngleSound) (hl : AllOf (GraphicAngleSound.WF v) l) :
    ∃ bs, Graphic.toBytes v { x with angle_sounds := l } = .ok bs ∧
      ((∃ h', Graphic.fromBytes { ByteHandler.new bs with version := v } = .ok ({ x with angle_sounds := l }, h')) ↔
        l.length = if x.angle_sounds_used = 0 then 0 else x.angle_count.toNat) := by
  have h1 : causes (Graphic.layout v { x with angle_sounds := l }) = [] := by
    have h0 := RecordClass.clean .Graphic hx
    simp only [RecordClass.layout, Graphic.layout, clean_cons] at h0 ⊢
    simp only [h0, clean_f32, clean_fnil, true_and, and_true]
    exact clean_each.2 fun x hx => RecordClass.clean .GraphicAngleSound (hl x hx)
  have hb := (Graphic.writes v _).ok_of h1
  refine ⟨_, hb, (C13_record_round_trips_iff .Graphic v _ _ hb).trans ⟨fun k => k.angle_sounds.2, fun k => ?_⟩⟩
  exact { hx with angle_sounds := ⟨hl, k⟩ }

/-- A map that claims to have five lands but has two. -/
example : ({ Sample.mapInfo with map_lands_size := 5 } : MapInfo).InRange .VER_88 ∧
    ¬ ({ Sample.mapInfo with map_lands_size := 5 } : MapInfo).SizesMatch := by
  refine ⟨⟨?_, by decide, by decide, by decide, by decide⟩, fun h => absurd h.1 (by decide)⟩
  exact Sample.wf .VER_88 (by decide) .MapInfo

/-- One with matching sizes. -/
example : Sample.mapInfo.InRange .VER_84 ∧ Sample.mapInfo.SizesMatch :=
  ⟨⟨Sample.wf .VER_84 (by decide) .MapInfo, by decide, by decide, by decide, by decide⟩, by decide, by decide, by decide, by decide⟩

end Genie
