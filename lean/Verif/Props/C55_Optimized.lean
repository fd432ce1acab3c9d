import Verif.Proof.OptimizedClasses
import Verif.Proof.OptimizedWrites
import Verif.Props.C53_Grammar
/-!
# C55: `python -O`

With `-O` Python does not execute `assert`; `Model/Optimized.lean` has the readers and writers as they run then.  The only effect
is at inputs for which the normal mode raises `AssertionError`: a wrong text marker is then ignored (and repaired by the next
save), and an object whose lists should agree in length but do not is written to a file that does not give it back.
-/

namespace Genie

/-- `from_bytes` of a class, with `-O`. -/
def RecordClass.fromBytesO : (c : RecordClass) → Reader c.Obj
  | .Effect => Genie.Effect.fromBytesO
  | .SoundItem => Genie.SoundItem.fromBytesO
  | .Sound => Genie.Sound.fromBytesO
  | .Graphic => Genie.Graphic.fromBytesO
  | .Terrain => Genie.Terrain.fromBytesO
  | .TerrainBlock => Genie.TerrainBlock.fromBytesO
  | .Tech => Genie.Tech.fromBytesO
  | .Unit => Genie.Unit.fromBytesO
  | .Civ => Genie.Civ.fromBytesO
  | c => c.fromBytes

theorem RecordClass.omode (c : RecordClass) : OMode c.fromBytes c.fromBytesO := by
  cases c with
  | EffectCommand => exact Genie.EffectCommand.omode
  | Effect => exact Genie.Effect.omode
  | SoundItem => exact Genie.SoundItem.omode
  | Sound => exact Genie.Sound.omode
  | PlayerColour => exact Genie.PlayerColour.omode
  | GraphicDelta => exact Genie.GraphicDelta.omode
  | GraphicAngleSound => exact Genie.GraphicAngleSound.omode
  | Graphic => exact Genie.Graphic.omode
  | TerrainPassGraphic => exact Genie.TerrainPassGraphic.omode
  | FrameData => exact Genie.FrameData.omode
  | Terrain => exact Genie.Terrain.omode
  | TileSize => exact Genie.TileSize.omode
  | TerrainBlock => exact Genie.TerrainBlock.omode
  | MapUnit => exact Genie.MapUnit.omode
  | MapTerrain => exact Genie.MapTerrain.omode
  | MapLand => exact Genie.MapLand.omode
  | MapElevation => exact Genie.MapElevation.omode
  | MapInfo => exact Genie.MapInfo.omode
  | RandomMaps => exact Genie.RandomMaps.omode
  | ResearchResourceCost => exact Genie.ResearchResourceCost.omode
  | ResearchLocation => exact Genie.ResearchLocation.omode
  | Tech => exact Genie.Tech.omode
  | Common => exact Genie.Common.omode
  | TechTreeAge => exact Genie.TechTreeAge.omode
  | BuildingConnection => exact Genie.BuildingConnection.omode
  | UnitConnection => exact Genie.UnitConnection.omode
  | ResearchConnection => exact Genie.ResearchConnection.omode
  | TechTree => exact Genie.TechTree.omode
  | ResourceStorage => exact Genie.ResourceStorage.omode
  | DamageGraphic => exact Genie.DamageGraphic.omode
  | DeadFish => exact Genie.DeadFish.omode
  | Task => exact Genie.Task.omode
  | Bird => exact Genie.Bird.omode
  | AttackOrArmor => exact Genie.AttackOrArmor.omode
  | Type50 => exact Genie.Type50.omode
  | Projectile => exact Genie.Projectile.omode
  | ResourceCost => exact Genie.ResourceCost.omode
  | TrainLocation => exact Genie.TrainLocation.omode
  | Creatable => exact Genie.Creatable.omode
  | BuildingAnnex => exact Genie.BuildingAnnex.omode
  | Building => exact Genie.Building.omode
  | Unit => exact Genie.Unit.omode
  | UnitHeaders => exact Genie.UnitHeaders.omode
  | Civ => exact Genie.Civ.omode
  | TerrainRestriction n => exact Genie.TerrainRestriction.omode n

/-- Reading a file with `-O` gives what it gives without, unless that raises `AssertionError`. -/
theorem C55_read (h : ByteHandler) : DatFile.fromBytes h = .error .assertionError ∨ DatFile.fromBytesO h = DatFile.fromBytes h :=
  DatFile.omode.agree h

theorem C55_record_read (c : RecordClass) (h : ByteHandler) :
    c.fromBytes h = .error .assertionError ∨ c.fromBytesO h = c.fromBytes h := c.omode.agree h

/-- `AssertionError` is not raised, of course. -/
theorem C55_no_assertion (h : ByteHandler) (c : RecordClass) (d : DatFile) :
    DatFile.fromBytesO h ≠ .error .assertionError ∧ c.fromBytesO h ≠ .error .assertionError ∧ d.toBytesO ≠ .error .assertionError :=
  ⟨DatFile.omode.quiet h, c.omode.quiet h, fun he => ((DatFile.writesO d).error _ he).2 rfl⟩

/-- What is read with `-O` is what is read normally after replacing the wrong markers by `60 0A` (and, if the data ends too early,
completing it): the read covers as many bytes, and gives the same object. -/
theorem C55_read_repaired (h h' : ByteHandler) (d : DatFile) (hr : DatFile.fromBytesO h = .ok (d, h')) :
    ∃ bs cs, (bs <+: h.content.drop h.offset ∨ Completion (h.content.drop h.offset) bs) ∧ h'.offset = h.offset + bs.length ∧
      Mended bs cs ∧ ∃ g, DatFile.fromBytes (ByteHandler.new cs) = .ok (d, g) ∧ g.offset = cs.length := by
  obtain ⟨bs, cs, v, l, f, m, rfl, g⟩ := DatFile.omode.mend h d h' hr
  have : ∀ g : ByteHandler, cs <+: g.content.drop g.offset →
      ∃ l, DatFile.fromBytes g = .ok (d, { g with offset := g.offset + cs.length, version := v, lossy := l }) := by
    intro g0 hp
    obtain ⟨l, e⟩ := g { g0 with version := h.version } rfl hp
    refine ⟨l, ?_⟩
    unfold DatFile.fromBytes at e ⊢
    rw [header_eq] at e ⊢
    exact e
  obtain ⟨l2, e⟩ := this (ByteHandler.new cs) (by simp [ByteHandler.new])
  exact ⟨bs, cs, f, rfl, m, _, e, by simp [ByteHandler.new]⟩

theorem C55_record_read_repaired (c : RecordClass) (h h' : ByteHandler) (x : c.Obj) (hr : c.fromBytesO h = .ok (x, h')) :
    ∃ bs cs, (bs <+: h.content.drop h.offset ∨ Completion (h.content.drop h.offset) bs) ∧ h'.offset = h.offset + bs.length ∧
      Mended bs cs ∧ ∃ g, c.fromBytes { ByteHandler.new cs with version := h.version } = .ok (x, g) ∧ g.offset = cs.length := by
  obtain ⟨bs, cs, v, l, f, m, rfl, g⟩ := c.omode.mend h x h' hr
  obtain ⟨l2, e⟩ := g { ByteHandler.new cs with version := h.version } rfl (by simp [ByteHandler.new])
  exact ⟨bs, cs, f, rfl, m, _, e, by simp [ByteHandler.new]⟩

/-- Whatever the two bytes of the marker are, the text behind it is read. -/
theorem C55_any_marker (h : ByteHandler) (x y : UInt8) (rest : Bytes) (hc : h.content.drop h.offset = 0x60 :: 0x0A :: rest) (s : PyStr)
    (h' : ByteHandler) (hr : readDebugString h = .ok (s, h')) :
    ∃ l, readDebugStringO { h with content := h.content.take h.offset ++ (x :: y :: rest) } =
      .ok (s, { h' with
        content := h.content.take h.offset ++ (x :: y :: rest)
        lossy := l }) := by
  have ho : h.offset < h.content.length := by
    have := congrArg List.length hc
    simp only [List.length_drop, List.length_cons] at this; omega
  have hcc : h.content = h.content.take h.offset ++ (0x60 :: 0x0A :: rest) := by
    rw [← hc, List.take_append_drop]
  generalize ht : h.content.take h.offset = pre at *
  have hp : pre.length = h.offset := by rw [← ht, List.length_take]; omega
  obtain ⟨content, offset, version, lossy⟩ := h
  simp only at *
  subst hcc
  subst hp
  have e1 : ∀ (a b : UInt8), slice (pre ++ (a :: b :: rest)) pre.length (pre.length + 2) = [a, b] := by
    intro a b; rw [slice_drop_take, List.drop_left' rfl]; rfl
  have e2 : ∀ (a b : UInt8) (k : Nat), slice (pre ++ (a :: b :: rest)) (pre.length + 2) (pre.length + 2 + k) = rest.take k := by
    intro a b k
    rw [slice_drop_take, ← List.drop_drop, List.drop_left' rfl]; rfl
  have e3 : ∀ (a b : UInt8) (j k : Nat), slice (pre ++ (a :: b :: rest)) (pre.length + 2 + j) (pre.length + 2 + j + k) = (rest.drop j).take k := by
    intro a b j k
    rw [slice_drop_take, ← List.drop_drop, ← List.drop_drop, List.drop_left' rfl]; rfl
  have hn : readDebugString (ByteHandler.mk (pre ++ (0x60 :: 0x0A :: rest)) pre.length version lossy) = readDebugStringO (ByteHandler.mk (pre ++ (0x60 :: 0x0A :: rest)) pre.length version lossy) := by
    rcases OMode.debugString.agree (ByteHandler.mk (pre ++ (0x60 :: 0x0A :: rest)) pre.length version lossy) with e | e
    · rw [hr] at e; cases e
    · exact e.symm
  rw [hn] at hr
  have key : ∀ a b : UInt8, ∃ l, readDebugStringO (ByteHandler.mk (pre ++ (a :: b :: rest)) pre.length version lossy) =
      (String_from_bytes ((rest.drop 2).take (Int_from_bytes (rest.take 2) false).toNat)).map fun s => (s,
        ByteHandler.mk (pre ++ (a :: b :: rest)) (pre.length + 2 + 2 + (Int_from_bytes (rest.take 2) false).toNat) version l) := by
    intro a b
    have k1 : ∀ g : ByteHandler, ∃ l, readDebugStringO g =
        (String_from_bytes (slice g.content (g.offset + 2 + 2)
          (g.offset + 2 + 2 + (Int_from_bytes (slice g.content (g.offset + 2) (g.offset + 2 + 2)) false).toNat))).map fun s => (s,
          ByteHandler.mk g.content (g.offset + 2 + 2 + (Int_from_bytes (slice g.content (g.offset + 2) (g.offset + 2 + 2)) false).toNat)
            g.version l) := by
      intro g
      obtain ⟨l, e⟩ := note_liftPy_map (x := String_from_bytes (slice g.content (g.offset + 2 + 2)
          (g.offset + 2 + 2 + (Int_from_bytes (slice g.content (g.offset + 2) (g.offset + 2 + 2)) false).toNat)))
        (b := decide (rstripNul (slice g.content (g.offset + 2 + 2)
          (g.offset + 2 + 2 + (Int_from_bytes (slice g.content (g.offset + 2) (g.offset + 2 + 2)) false).toNat)) ≠
          slice g.content (g.offset + 2 + 2)
          (g.offset + 2 + 2 + (Int_from_bytes (slice g.content (g.offset + 2) (g.offset + 2 + 2)) false).toNat)))
        (ByteHandler.mk g.content (g.offset + 2 + 2 + (Int_from_bytes (slice g.content (g.offset + 2) (g.offset + 2 + 2)) false).toNat)
          g.version _)
      exact ⟨l, e⟩
    obtain ⟨l, e⟩ := k1 (ByteHandler.mk (pre ++ (a :: b :: rest)) pre.length version lossy)
    refine ⟨l, ?_⟩
    simp only at e
    rw [e2, e3] at e
    exact e
  obtain ⟨l1, k1⟩ := key 0x60 0x0A
  obtain ⟨l2, k2⟩ := key x y
  refine ⟨l2, ?_⟩
  rw [k1] at hr
  rw [k2]
  cases hs : String_from_bytes ((rest.drop 2).take (Int_from_bytes (rest.take 2) false).toNat) with
  | error e => rw [hs] at hr; cases hr
  | ok t => rw [hs] at hr; cases hr; rfl

/-- An object read with `-O` is as good as one read without: it is well-formed, both modes save it as the same bytes, and both read these
bytes as the object again. -/
theorem C55_read_then_save (h h' : ByteHandler) (d : DatFile) (hr : DatFile.fromBytesO h = .ok (d, h')) :
    d.WF ∧ ∃ ws g, d.toBytes = .ok ws ∧ d.toBytesO = .ok ws ∧ DatFile.fromBytes (ByteHandler.new ws) = .ok (d, g) ∧
      DatFile.fromBytesO (ByteHandler.new ws) = .ok (d, g) := by
  obtain ⟨bs, cs, -, -, -, g, e, -⟩ := C55_read_repaired h h' d hr
  obtain ⟨ws, e1, g2, e2⟩ := C14_parsed_can_be_saved _ _ _ e
  refine ⟨⟨_, C13_parsed_wellformed _ _ _ e⟩, ws, g2, e1, ?_, e2, ?_⟩
  · rcases (DatFile.writesO d).agree with k | k
    · rw [e1] at k; cases k
    · rw [k, e1]
  · rcases C55_read (ByteHandler.new ws) with k | k
    · rw [e2] at k; cases k
    · rw [k, e2]

/-- Writing with `-O` gives what it gives without, unless that raises `AssertionError`. -/
theorem C55_write (d : DatFile) : d.toBytes = .error .assertionError ∨ d.toBytesO = d.toBytes := (DatFile.writesO d).agree

theorem C55_record_write (v : Version) (x : TerrainRestriction) (y : RandomMaps) :
    (x.toBytes v = .error .assertionError ∨ x.toBytesO v = x.toBytes v) ∧
    (y.toBytes v = .error .assertionError ∨ y.toBytesO v = y.toBytes v) :=
  ⟨(TerrainRestriction.writesO v x).agree, (RandomMaps.writesO v y).agree⟩

/-- With `-O` an object is written exactly if nothing but assertions speaks against it, and then as the bytes of its items. -/
theorem C55_write_exact (d : DatFile) (bs : Bytes) :
    d.toBytesO = .ok bs ↔ (∀ e ∈ causes d.layout, e = .assertionError) ∧ bs = layoutBytes d.layout := by
  constructor
  · exact (DatFile.writesO d).ok bs
  · rintro ⟨h, rfl⟩
    cases hw : d.toBytesO with
    | ok b => rw [((DatFile.writesO d).ok b hw).2]
    | error e =>
      obtain ⟨h1, h2⟩ := (DatFile.writesO d).error e hw
      exact absurd (h e h1) h2

/-- What `-O` writes although an assertion fails is lost: no read, in either mode, of any data gives that object. -/
theorem C55_write_lost (d : DatFile) (hd : d.toBytes = .error .assertionError) (h h' : ByteHandler) :
    DatFile.fromBytes h ≠ .ok (d, h') ∧ DatFile.fromBytesO h ≠ .ok (d, h') := by
  constructor
  · intro hr
    obtain ⟨ws, e1, -⟩ := C14_parsed_can_be_saved _ _ _ hr
    rw [hd] at e1; cases e1
  · intro hr
    obtain ⟨-, ws, g, e1, -⟩ := C55_read_then_save _ _ _ hr
    rw [hd] at e1; cases e1

/-! ## not vacuous -/

-- an effect with the marker 0, read as usual, although the normal mode raises `AssertionError`
example : errorOf (Effect.fromBytes { ByteHandler.new [0, 0, 1, 0, 65, 0, 0] with version := .VER_88 }) = some .assertionError ∧
    (resultOf (Effect.fromBytesO { ByteHandler.new [0, 0, 1, 0, 65, 0, 0] with version := .VER_88 })).map Prod.fst = some ⟨[65], []⟩ := by
  constructor <;> decide +kernel
-- its repair
example : Mended [0, 0, 1, 0, 65, 0, 0] [0x60, 0x0A, 1, 0, 65, 0, 0] := .marker 0 0 (Mended.refl _)
-- a file with one pointer too many for its terrain restrictions
example : errorOf ({ Sample.datFile .VER_88 with
      float_ptr_terrain_tables := 7 :: (Sample.datFile .VER_88).float_ptr_terrain_tables }).toBytes = some .assertionError ∧
    (resultOf ({ Sample.datFile .VER_88 with
      float_ptr_terrain_tables := 7 :: (Sample.datFile .VER_88).float_ptr_terrain_tables }).toBytesO).isSome = true := by
  constructor <;> decide +kernel

end Genie
