import Verif.Proof.Heap.Units
/-!
# `DatFile.from_bytes` on the heap

The whole file: the heap reader and the value reader end the same way, and what the former builds is the tree of what the latter returns.
-/

namespace Genie
open HReader

theorem repeatR_length {r : Reader α} : ∀ {n s l s'}, repeatR r n s = .ok (l, s') → l.length = n
  | 0, s, l, s', h => by cases h; rfl
  | n + 1, s, l, s', h => by
    unfold repeatR at h
    rw [Reader.bind_run] at h
    split at h
    · cases h
    · next a s1 _ =>
      rw [Reader.bind_run] at h
      split at h
      · cases h
      · next l1 s2 e => cases h; simp [repeatR_length e]

/-- The list of terrain restrictions, with the ghost note after it. -/
theorem Sim.terrainRestrictions {P ver Γ} {size used : Int} {hk : HVal → HReader HVal} {k : List TerrainRestriction → Reader α}
    {tree : α → ObjTree}
    (h : ∀ v b fp, Sim P ver (⟨v, .list (b.map TerrainRestriction.object), fp⟩ :: Γ) (hk v) (k b) tree) :
    Sim P ver Γ
      (HReader.readClassArrayWithParam TerrainRestriction.buildWithCount size used >>= fun v =>
        lift (noteLossy (decide (size.toNat = 0 ∧ used ≠ 0))) >>= fun _ => hk v)
      (Genie.readClassArrayWithParam TerrainRestriction.fromBytesWithCount size used >>= fun b =>
        noteLossy (decide (b = [] ∧ used ≠ 0)) >>= fun _ => k b) tree := by
  have key : ∀ s b s', Genie.readClassArrayWithParam TerrainRestriction.fromBytesWithCount size used s = .ok (b, s') →
      decide (b = [] ∧ used ≠ 0) = decide (size.toNat = 0 ∧ used ≠ 0) := by
    intro s b s' e
    have : b.length = size.toNat := by
      unfold Genie.readClassArrayWithParam Genie.readArray at e
      exact repeatR_length (n := size.toNat) e
    rw [← this]
    cases b <;> simp
  have main : Sim P ver Γ
      (HReader.readClassArrayWithParam TerrainRestriction.buildWithCount size used >>= fun v =>
        lift (noteLossy (decide (size.toNat = 0 ∧ used ≠ 0))) >>= fun _ => hk v)
      (Genie.readClassArrayWithParam TerrainRestriction.fromBytesWithCount size used >>= fun b =>
        noteLossy (decide (size.toNat = 0 ∧ used ≠ 0)) >>= fun _ => k b) tree :=
    Sim.object (Builds.readClassArrayWithParam TerrainRestriction.buildsWithCount size used) fun v b fp => Sim.scalar fun _ => h v b fp
  intro N s hs o
  have := main N s hs o
  rw [Reader.bind_run] at this ⊢
  cases e : Genie.readClassArrayWithParam TerrainRestriction.fromBytesWithCount size used s with
  | error _ => rw [e] at this; exact this
  | ok p =>
    obtain ⟨b, s'⟩ := p
    rw [e] at this
    dsimp only at this ⊢
    rw [key s b s' e]
    exact this

theorem Sim.start {P ver} {hk : HReader HVal} {k : Reader α} {tree : α → ObjTree} (h : Sim P ver [] hk k tree) {s : ByteHandler}
    (hs : s.version = ver) : Post P ver tree (hk P s) (k s) := by
  have := h [] s hs Own.nil
  rwa [List.append_nil] at this

theorem lift_ok {r : Reader α} {H s a s'} (h : r s = .ok (a, s')) : lift r H s = .ok (a, H, s') := by
  unfold lift; rw [h]

theorem lift_error {r : Reader α} {H s e} (h : r s = .error e) : lift r H s = .error e := by
  unfold lift; rw [h]

set_option maxHeartbeats 2000000 in
/-- The whole file. -/
theorem DatFile.built (P : Heap) (s : ByteHandler) :
    (∃ e, DatFile.build P s = .error e ∧ DatFile.fromBytes s = .error e) ∨
    ∃ ver, Post P ver (DatFile.object (!ver.ge .VER_84)) (DatFile.build P s) (DatFile.fromBytes s) := by
  unfold DatFile.build DatFile.fromBytes
  cases e1 : readString 8 s with
  | error e =>
    refine .inl ⟨e, ?_, ?_⟩
    · rw [HReader.bind_run, lift_error e1]
    · rw [Reader.bind_run, e1]
  | ok p =>
  obtain ⟨version, s1⟩ := p
  rw [HReader.bind_run, lift_ok e1, Reader.bind_run, e1]
  dsimp only
  cases e2 : Version.ofStr version with
  | error e =>
    have e2' : (liftPy (.error e) : Reader Version) s1 = .error e := rfl
    refine .inl ⟨e, ?_, ?_⟩
    · rw [HReader.bind_run, lift_error e2']
    · rw [Reader.bind_run, e2']
  | ok ver =>
  have e2' : (liftPy (.ok ver) : Reader Version) s1 = .ok (ver, s1) := rfl
  rw [HReader.bind_run, lift_ok e2', Reader.bind_run, e2']
  dsimp only
  have e3 : setVersion ver s1 = .ok ((), { s1 with version := ver }) := rfl
  rw [HReader.bind_run, lift_ok e3, Reader.bind_run, e3]
  refine .inr ⟨ver, ?_⟩
  dsimp only
  refine Sim.start ?_ rfl
  refine Sim.scalar fun _ => ?_
  refine Sim.scalar fun _ => ?_
  refine Sim.object (Builds.readInt32Array _) fun _ _ _ => ?_
  refine Sim.object (Builds.readInt32Array _) fun _ _ _ => ?_
  refine Sim.terrainRestrictions fun _ _ _ => ?_
  refine Sim.scalar fun _ => ?_
  refine Sim.object (Builds.readClassArray PlayerColour.builds _ _) fun _ _ _ => ?_
  refine Sim.scalar fun _ => ?_
  refine Sim.object (Builds.readClassArray Sound.builds _ _) fun _ _ _ => ?_
  refine Sim.scalar fun _ => ?_
  refine Sim.object (Builds.readInt32Array _) fun _ _ _ => ?_
  refine Sim.pointers Graphic.builds (by remove_tac) fun _ _ _ => ?_
  refine Sim.object (Builds.readClass TerrainBlock.builds) fun _ _ _ => ?_
  refine Sim.object (Builds.readClass RandomMaps.builds) fun _ _ _ => ?_
  refine Sim.scalar fun _ => ?_
  refine Sim.object (Builds.readClassArray Effect.builds _ _) fun _ _ _ => ?_
  refine Sim.scalar fun _ => ?_
  refine Sim.object (Builds.readClassArray UnitHeaders.builds _ _) fun _ _ _ => ?_
  refine Sim.scalar fun _ => ?_
  refine Sim.object (Builds.readClassArray Civ.builds _ _) fun _ _ _ => ?_
  refine Sim.scalar fun _ => ?_
  refine Sim.object (Builds.readClassArray Tech.builds _ _) fun _ _ _ => ?_
  refine Sim.scalar fun _ => ?_
  refine Sim.scalar fun _ => ?_
  refine Sim.scalar fun _ => ?_
  refine Sim.scalar fun _ => ?_
  refine Sim.scalar fun _ => ?_
  refine Sim.scalar fun _ => ?_
  refine Sim.scalar fun _ => ?_
  refine Sim.object (Builds.readClass TechTree.builds) fun _ _ _ => ?_
  apply Sim.retObj rfl
  attrs_tac

end Genie
