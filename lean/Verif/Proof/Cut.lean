import Verif.Proof.Truncate
import Verif.Proof.Sizes
/-!
# Files that end too early: the part up to the last float of the terrain block is indispensable
-/

namespace Genie

/-- Started past the end of the data, `r` raises. -/
def Demanding (v : Version) (r : Reader α) : Prop :=
  ∀ h : ByteHandler, h.version = v → h.content.length < h.offset → ∃ e, r h = .error e

theorem Demanding.bind {v : Version} {r : Reader α} {f : α → Reader β} {Q : α → Prop} {P : α → Bytes → Prop}
    (h1 : Good v r Q P) (h2 : ∀ a, Q a → Demanding v (f a)) : Demanding v (r >>= f) := by
  intro h hv hp
  have hb : (r >>= f) h = match r h with | .error e => .error e | .ok (a, h') => f a h' := rfl
  rw [hb]
  rcases h1 h hv with ⟨e, he, -⟩ | ⟨a, n, l, hr, s⟩
  · exact ⟨e, by rw [he]⟩
  · rw [hr]
    exact h2 a s.post _ hv (by simp only; omega)

theorem Demanding.first {v : Version} {r : Reader α} {f : α → Reader β} (h1 : Demanding v r) : Demanding v (r >>= f) := by
  intro h hv hp
  have hb : (r >>= f) h = match r h with | .error e => .error e | .ok (a, h') => f a h' := rfl
  obtain ⟨e, he⟩ := h1 h hv hp
  exact ⟨e, by rw [hb, he]⟩

theorem readFloat_eq (h : ByteHandler) : readFloat h =
    match unpackNativeF (slice h.content h.offset (h.offset + 4)) with
    | .error e => .error e
    | .ok a => .ok (a, { h with
        offset := h.offset + 4
        lossy := (h.lossy || decide (0 < 4 ∧ h.content.length < h.offset + 4)) ||
          F.isSNaN32 (leNat (slice h.content h.offset (h.offset + 4))) }) := by
  unfold readFloat
  show Genie.liftPy (Float_from_bytes _) _ = _
  unfold Genie.liftPy Float_from_bytes
  cases unpackNativeF (slice h.content h.offset (h.offset + 4)) <;> rfl

theorem Demanding.float {v : Version} : Demanding v readFloat := by
  intro h hv hp
  refine ⟨.structError, ?_⟩
  have : slice h.content h.offset (h.offset + 4) = [] := by
    rw [slice_eq, List.drop_of_length_le (by omega)]; rfl
  rw [readFloat_eq, this]
  rfl

/-- A reader started where some first part of `bs` is left (and nothing else) only succeeds if at most `m` bytes of `bs` are missing. -/
def Needs (v : Version) (r : Reader α) (bs : Bytes) (m : Nat) : Prop :=
  ∀ h : ByteHandler, h.version = v → h.offset ≤ h.content.length → h.content.drop h.offset <+: bs →
    Succeeds (r h) → bs.length ≤ (h.content.length - h.offset) + m

theorem Needs.bind {v : Version} {r : Reader α} {f : α → Reader β} {Q : α → Prop} {P : α → Bytes → Prop} {b1 b2 : Bytes} {a : α}
    {m : Nat} (hg : Good v r Q P) (hr : Reads v r b1 a) (h2 : Needs v (f a) b2 m) (hd : ∀ a, Q a → Demanding v (f a)) :
    Needs v (r >>= f) (b1 ++ b2) m := by
  intro h hv ho hp hs
  obtain ⟨res, hs⟩ := hs
  have hb : (r >>= f) h = match r h with | .error e => .error e | .ok (a, h') => f a h' := rfl
  rw [hb] at hs
  rcases hg h hv with ⟨e, he, -⟩ | ⟨a', n, l, hr', s⟩
  · rw [he] at hs; cases hs
  · rw [hr'] at hs
    simp only at hs
    by_cases hw : h.offset + n ≤ h.content.length
    · have f1 := s.frame hw ⟨b1 ++ b2, 0, v, false⟩ rfl ((List.take_prefix _ _).trans (by simpa using hp))
      have f2 := hr ⟨b1 ++ b2, 0, v, false⟩ rfl (by simp)
      rw [f1] at f2
      simp only [Except.ok.injEq, Prod.mk.injEq, ByteHandler.mk.injEq, Nat.zero_add, true_and] at f2
      obtain ⟨ea, en, -⟩ := f2
      subst ea
      have hp' : h.content.drop (h.offset + n) <+: b2 := by
        obtain ⟨t, ht⟩ := hp
        refine ⟨t, ?_⟩
        rw [← List.drop_drop]
        have := congrArg (List.drop n) ht
        rw [List.drop_append_of_le_length (by rw [List.length_drop]; omega), List.drop_append_of_le_length (by omega), en] at this
        rw [en]
        simpa using this
      have := h2 { h with offset := h.offset + n, lossy := h.lossy || l } hv hw hp' ⟨res, hs⟩
      simp only [List.length_append] at this ⊢
      omega
    · obtain ⟨e, he⟩ := hd a' s.post { h with offset := h.offset + n, lossy := h.lossy || l } hv (by simp only; omega)
      rw [he] at hs; cases hs

/-- What the first of two readers needs, both need. -/
theorem Needs.first {v : Version} {r : Reader α} {f : α → Reader β} {b1 b2 : Bytes} {m k : Nat} (h1 : Needs v r b1 m)
    (hk : b2.length = k) : Needs v (r >>= f) (b1 ++ b2) (m + k) := by
  intro h hv ho hp hs
  have hb : (r >>= f) h = match r h with | .error e => .error e | .ok (a, h') => f a h' := rfl
  have hr : Succeeds (r h) := by
    obtain ⟨res, hs⟩ := hs
    rw [hb] at hs
    cases hc : r h with
    | error e => rw [hc] at hs; cases hs
    | ok p => exact ⟨p, rfl⟩
  rw [List.length_append]
  by_cases hl : b1.length ≤ h.content.length - h.offset
  · omega
  · have : h.content.drop h.offset <+: b1 := by
      refine List.prefix_of_prefix_length_le hp (List.prefix_append b1 b2) ?_
      rw [List.length_drop]; omega
    have := h1 h hv ho this hr
    omega

theorem Needs.float {v : Version} {b : Bytes} (hb : b.length = 4) : Needs v readFloat b 0 := by
  intro h hv ho hp hs
  obtain ⟨res, hs⟩ := hs
  rw [hb]
  by_cases hl : 4 ≤ h.content.length - h.offset
  · omega
  · exfalso
    rw [readFloat_eq] at hs
    unfold unpackNativeF at hs
    rw [if_neg (by rw [slice_eq, List.length_take, List.length_drop]; omega)] at hs
    cases hs

/-- With a writer expression. -/
def NeedsW (v : Version) (r : Reader α) (w : Py Bytes) (m : Nat) : Prop := ∃ bs, w = .ok bs ∧ Needs v r bs m

theorem NeedsW.bind {v : Version} {r : Reader α} {f : α → Reader β} {Q : α → Prop} {P : α → Bytes → Prop} {w : Py Bytes}
    {ws : List (Py Bytes)} {a : α} {m : Nat} (hg : Good v r Q P) (hr : RW v r w a) (h2 : NeedsW v (f a) (joinB ws) m)
    (hd : ∀ a, Q a → Demanding v (f a)) : NeedsW v (r >>= f) (joinB (w :: ws)) m := by
  obtain ⟨b1, e1, r1⟩ := hr
  obtain ⟨b2, e2, n2⟩ := h2
  exact ⟨b1 ++ b2, joinB_cons_ok e1 e2, Needs.bind hg r1 n2 hd⟩

/-- `w` succeeds with `n` bytes. -/
def HasLength (w : Py Bytes) (n : Nat) : Prop := ∃ bs, w = .ok bs ∧ bs.length = n

theorem HasLength.nil : HasLength (joinB []) 0 := ⟨[], rfl, rfl⟩
theorem HasLength.cons {w : Py Bytes} {ws : List (Py Bytes)} {n m : Nat} (h1 : HasLength w n) (h2 : HasLength (joinB ws) m) :
    HasLength (joinB (w :: ws)) (n + m) := by
  obtain ⟨b1, e1, l1⟩ := h1
  obtain ⟨b2, e2, l2⟩ := h2
  exact ⟨b1 ++ b2, joinB_cons_ok e1 e2, by simp [l1, l2]⟩
theorem HasLength.float (x : PyFloat) : HasLength (writeFloat x) 4 := ⟨_, rfl, bytesOfFloat_len x⟩

theorem NeedsW.first {v : Version} {r : Reader α} {f : α → Reader β} {w : Py Bytes} {ws : List (Py Bytes)} {m k : Nat}
    (h1 : NeedsW v r w m) (h2 : HasLength (joinB ws) k) : NeedsW v (r >>= f) (joinB (w :: ws)) (m + k) := by
  obtain ⟨b1, e1, n1⟩ := h1
  obtain ⟨b2, e2, l2⟩ := h2
  exact ⟨b1 ++ b2, joinB_cons_ok e1 e2, Needs.first n1 l2⟩

theorem NeedsW.float {v : Version} (x : PyFloat) : NeedsW v readFloat (writeFloat x) 0 :=
  ⟨_, rfl, Needs.float (bytesOfFloat_len x)⟩

theorem HasLength.int {i : Int} {n : Nat} {s : Bool} (h : ∃ bs, Int_to_bytes i n s = .ok bs) : HasLength (Int_to_bytes i n s) n := by
  obtain ⟨bs, e⟩ := h
  exact ⟨bs, e, intToBytes_length e⟩
theorem HasLength.rw8 {i : Int} (h : IsU8 i) : HasLength (writeInt8 i) 1 :=
  HasLength.int (by obtain ⟨b, e, -⟩ := RW.int8 (v := .VER_88) h; exact ⟨b, e⟩)
theorem HasLength.rw16 {i : Int} (h : IsI16 i) : HasLength (writeInt16 i true) 2 :=
  HasLength.int (by obtain ⟨b, e, -⟩ := RW.int16 (v := .VER_88) h; exact ⟨b, e⟩)
theorem HasLength.rw32u {i : Int} (h : IsU32 i) : HasLength (writeInt32 i false) 4 :=
  HasLength.int (by obtain ⟨b, e, -⟩ := RW.uint32 (v := .VER_88) h; exact ⟨b, e⟩)

set_option maxRecDepth 2000 in
theorem TerrainBlock.demanding (v : Version) : Demanding v TerrainBlock.fromBytes := by
  unfold TerrainBlock.fromBytes
  refine Demanding.bind Good.uint32 fun _ _ => ?_
  refine Demanding.bind Good.uint32 fun _ _ => ?_
  refine Demanding.bind Good.int32 fun _ _ => ?_
  refine Demanding.bind Good.int32 fun _ _ => ?_
  refine Demanding.bind Good.int32 fun _ _ => ?_
  refine Demanding.bind Good.int32 fun _ _ => ?_
  refine Demanding.bind (Good.classArray _ (TileSize.good v)) fun _ _ => ?_
  refine Demanding.bind Good.int16 fun _ _ => ?_
  refine Demanding.bind (Good.classArray _ (Terrain.good v)) fun _ _ => ?_
  exact Demanding.first Demanding.float

set_option maxRecDepth 2000 in
/-- A terrain block of which more than the last 39 bytes are missing is not read. -/
theorem TerrainBlock.needs {v : Version} {x : TerrainBlock} (h : TerrainBlock.WF v x) :
    NeedsW v TerrainBlock.fromBytes (TerrainBlock.toBytes v x) 39 := by
  obtain ⟨x_virtual_function_ptr, x_map_pointer, x_map_width, x_map_height, x_world_width, x_world_height, x_tile_sizes, x_padding_ts, x_terrains, x_map_min_x, x_map_min_y, x_map_max_x, x_map_max_y, x_map_max_x_plus_1, x_map_max_y_plus_1, x_terrains_used_2, x_borders_used, x_max_terrain, x_tile_width, x_tile_height, x_tile_half_height, x_tile_half_width, x_elev_height, x_cur_row, x_cur_col, x_block_beg_row, x_block_end_row, x_block_beg_col, x_block_end_col, x_search_map_ptr, x_search_map_rows_ptr, x_any_frame_change, x_map_visible_flag, x_fog_flag⟩ := x
  obtain ⟨h_virtual_function_ptr, h_map_pointer, h_map_width, h_map_height, h_world_width, h_world_height, h_tile_sizes, h_padding_ts, h_terrains, h_map_min_x, h_map_min_y, h_map_max_x, h_map_max_y, h_map_max_x_plus_1, h_map_max_y_plus_1, h_terrains_used_2, h_borders_used, h_max_terrain, h_tile_width, h_tile_height, h_tile_half_height, h_tile_half_width, h_elev_height, h_cur_row, h_cur_col, h_block_beg_row, h_block_end_row, h_block_beg_col, h_block_end_col, h_search_map_ptr, h_search_map_rows_ptr, h_any_frame_change, h_map_visible_flag, h_fog_flag⟩ := h
  dsimp only at h_virtual_function_ptr h_map_pointer h_map_width h_map_height h_world_width h_world_height h_tile_sizes h_padding_ts h_terrains h_map_min_x h_map_min_y h_map_max_x h_map_max_y h_map_max_x_plus_1 h_map_max_y_plus_1 h_terrains_used_2 h_borders_used h_max_terrain h_tile_width h_tile_height h_tile_half_height h_tile_half_width h_elev_height h_cur_row h_cur_col h_block_beg_row h_block_end_row h_block_beg_col h_block_end_col h_search_map_ptr h_search_map_rows_ptr h_any_frame_change h_map_visible_flag h_fog_flag
  unfold TerrainBlock.fromBytes TerrainBlock.toBytes
  refine NeedsW.bind Good.uint32 (RW.uint32 h_virtual_function_ptr) ?_ (fun _ _ => by
    refine Demanding.bind Good.uint32 fun _ _ => ?_
    refine Demanding.bind Good.int32 fun _ _ => ?_
    refine Demanding.bind Good.int32 fun _ _ => ?_
    refine Demanding.bind Good.int32 fun _ _ => ?_
    refine Demanding.bind Good.int32 fun _ _ => ?_
    refine Demanding.bind (Good.classArray _ (TileSize.good v)) fun _ _ => ?_
    refine Demanding.bind Good.int16 fun _ _ => ?_
    refine Demanding.bind (Good.classArray _ (Terrain.good v)) fun _ _ => ?_
    exact Demanding.first Demanding.float)
  refine NeedsW.bind Good.uint32 (RW.uint32 h_map_pointer) ?_ (fun _ _ => by
    refine Demanding.bind Good.int32 fun _ _ => ?_
    refine Demanding.bind Good.int32 fun _ _ => ?_
    refine Demanding.bind Good.int32 fun _ _ => ?_
    refine Demanding.bind Good.int32 fun _ _ => ?_
    refine Demanding.bind (Good.classArray _ (TileSize.good v)) fun _ _ => ?_
    refine Demanding.bind Good.int16 fun _ _ => ?_
    refine Demanding.bind (Good.classArray _ (Terrain.good v)) fun _ _ => ?_
    exact Demanding.first Demanding.float)
  refine NeedsW.bind Good.int32 (RW.int32 h_map_width) ?_ (fun _ _ => by
    refine Demanding.bind Good.int32 fun _ _ => ?_
    refine Demanding.bind Good.int32 fun _ _ => ?_
    refine Demanding.bind Good.int32 fun _ _ => ?_
    refine Demanding.bind (Good.classArray _ (TileSize.good v)) fun _ _ => ?_
    refine Demanding.bind Good.int16 fun _ _ => ?_
    refine Demanding.bind (Good.classArray _ (Terrain.good v)) fun _ _ => ?_
    exact Demanding.first Demanding.float)
  refine NeedsW.bind Good.int32 (RW.int32 h_map_height) ?_ (fun _ _ => by
    refine Demanding.bind Good.int32 fun _ _ => ?_
    refine Demanding.bind Good.int32 fun _ _ => ?_
    refine Demanding.bind (Good.classArray _ (TileSize.good v)) fun _ _ => ?_
    refine Demanding.bind Good.int16 fun _ _ => ?_
    refine Demanding.bind (Good.classArray _ (Terrain.good v)) fun _ _ => ?_
    exact Demanding.first Demanding.float)
  refine NeedsW.bind Good.int32 (RW.int32 h_world_width) ?_ (fun _ _ => by
    refine Demanding.bind Good.int32 fun _ _ => ?_
    refine Demanding.bind (Good.classArray _ (TileSize.good v)) fun _ _ => ?_
    refine Demanding.bind Good.int16 fun _ _ => ?_
    refine Demanding.bind (Good.classArray _ (Terrain.good v)) fun _ _ => ?_
    exact Demanding.first Demanding.float)
  refine NeedsW.bind Good.int32 (RW.int32 h_world_height) ?_ (fun _ _ => by
    refine Demanding.bind (Good.classArray _ (TileSize.good v)) fun _ _ => ?_
    refine Demanding.bind Good.int16 fun _ _ => ?_
    refine Demanding.bind (Good.classArray _ (Terrain.good v)) fun _ _ => ?_
    exact Demanding.first Demanding.float)
  refine NeedsW.bind (Good.classArray _ (TileSize.good v)) (RW.classArray (by rw [h_tile_sizes.1]; rfl) fun y hy => TileSize.rw (h_tile_sizes.2 y hy)) ?_ (fun _ _ => by
    refine Demanding.bind Good.int16 fun _ _ => ?_
    refine Demanding.bind (Good.classArray _ (Terrain.good v)) fun _ _ => ?_
    exact Demanding.first Demanding.float)
  refine NeedsW.bind Good.int16 (RW.int16 h_padding_ts) ?_ (fun _ _ => by
    refine Demanding.bind (Good.classArray _ (Terrain.good v)) fun _ _ => ?_
    exact Demanding.first Demanding.float)
  refine NeedsW.bind (Good.classArray _ (Terrain.good v)) (RW.classArray (by rw [h_terrains.1]; rfl) fun y hy => Terrain.rw (h_terrains.2 y hy)) ?_ (fun _ _ => by
    exact Demanding.first Demanding.float)
  refine NeedsW.bind Good.float (RW.float h_map_min_x) ?_ (fun _ _ => Demanding.first Demanding.float)
  refine NeedsW.bind Good.float (RW.float h_map_min_y) ?_ (fun _ _ => Demanding.first Demanding.float)
  refine NeedsW.bind Good.float (RW.float h_map_max_x) ?_ (fun _ _ => Demanding.first Demanding.float)
  refine NeedsW.bind Good.float (RW.float h_map_max_y) ?_ (fun _ _ => Demanding.first Demanding.float)
  refine NeedsW.bind Good.float (RW.float h_map_max_x_plus_1) ?_ (fun _ _ => Demanding.first Demanding.float)
  refine NeedsW.first (m := 0) (k := 39) (NeedsW.float _) ?_
  exact HasLength.cons (HasLength.rw16 h_terrains_used_2) (HasLength.cons (HasLength.rw16 h_borders_used) (HasLength.cons (HasLength.rw16 h_max_terrain) (HasLength.cons (HasLength.rw16 h_tile_width) (HasLength.cons (HasLength.rw16 h_tile_height) (HasLength.cons (HasLength.rw16 h_tile_half_height) (HasLength.cons (HasLength.rw16 h_tile_half_width) (HasLength.cons (HasLength.rw16 h_elev_height) (HasLength.cons (HasLength.rw16 h_cur_row) (HasLength.cons (HasLength.rw16 h_cur_col) (HasLength.cons (HasLength.rw16 h_block_beg_row) (HasLength.cons (HasLength.rw16 h_block_end_row) (HasLength.cons (HasLength.rw16 h_block_beg_col) (HasLength.cons (HasLength.rw16 h_block_end_col) (HasLength.cons (HasLength.rw32u h_search_map_ptr) (HasLength.cons (HasLength.rw32u h_search_map_rows_ptr) (HasLength.cons (HasLength.rw8 h_any_frame_change) (HasLength.cons (HasLength.rw8 h_map_visible_flag) (HasLength.cons (HasLength.rw8 h_fog_flag) HasLength.nil))))))))))))))))))

end Genie
