import Verif.Proof.Heap.HotKey
/-! # The heap readers build what the value readers return (generated by `tools/gen_heap.py`) -/

set_option linter.unusedVariables false

namespace Genie
open HReader

theorem Unit.builds84 : Builds (Unit.build84) (Unit.fromBytes84) (fun ver => Unit.object (!ver.ge .VER_84)) := by
  intro P ver
  unfold Unit.build84 Unit.fromBytes84
  refine Sim.scalar fun _ => ?_
  refine Sim.popInt fun _ _ => ?_
  refine Sim.popInt fun _ _ => ?_
  refine Sim.popInt fun _ _ => ?_
  refine Sim.popInt fun _ _ => ?_
  refine Sim.popInt fun _ _ => ?_
  refine Sim.popInt fun _ _ => ?_
  refine Sim.popInt fun _ _ => ?_
  refine Sim.popInt fun _ _ => ?_
  refine Sim.popInt fun _ _ => ?_
  refine Sim.popInt fun _ _ => ?_
  refine Sim.popInt fun _ _ => ?_
  refine Sim.popFloat fun _ _ => ?_
  refine Sim.popInt fun _ _ => ?_
  refine Sim.popFloat fun _ _ => ?_
  refine Sim.popFloat fun _ _ => ?_
  refine Sim.popFloat fun _ _ => ?_
  refine Sim.popInt fun _ _ => ?_
  refine Sim.popInt fun _ _ => ?_
  refine Sim.popInt fun _ _ => ?_
  refine Sim.popInt fun _ _ => ?_
  refine Sim.popInt fun _ _ => ?_
  refine Sim.popInt fun _ _ => ?_
  refine Sim.popInt fun _ _ => ?_
  refine Sim.popInt fun _ _ => ?_
  refine Sim.popInt fun _ _ => ?_
  refine Sim.popInt fun _ _ => ?_
  refine Sim.popInt fun _ _ => ?_
  refine Sim.popInt fun _ _ => ?_
  refine Sim.popInt fun _ _ => ?_
  refine Sim.popInt fun _ _ => ?_
  refine Sim.popInt fun _ _ => ?_
  refine Sim.popFloat fun _ _ => ?_
  refine Sim.popFloat fun _ _ => ?_
  refine Sim.popInt fun _ _ => ?_
  refine Sim.popInt fun _ _ => ?_
  refine Sim.popInt fun _ _ => ?_
  refine Sim.popInt fun _ _ => ?_
  refine Sim.popInt fun _ _ => ?_
  refine Sim.popFloat fun _ _ => ?_
  refine Sim.popInt fun _ _ => ?_
  refine Sim.popInt fun _ _ => ?_
  refine Sim.popInt fun _ _ => ?_
  refine Sim.popInt fun _ _ => ?_
  refine Sim.popInt fun _ _ => ?_
  refine Sim.popFloat fun _ _ => ?_
  refine Sim.popInt fun _ _ => ?_
  refine Sim.popInt fun _ _ => ?_
  refine Sim.popInt fun _ _ => ?_
  refine Sim.popInt fun _ _ => ?_
  refine Sim.popInt fun _ _ => ?_
  refine Sim.popInt fun _ _ => ?_
  refine Sim.popInt fun _ _ => ?_
  refine Sim.popInt fun _ _ => ?_
  refine Sim.popInt fun _ _ => ?_
  refine Sim.popInt fun _ _ => ?_
  refine Sim.popInt fun _ _ => ?_
  refine Sim.popInt fun _ _ => ?_
  refine Sim.popInt fun _ _ => ?_
  refine Sim.popInt fun _ _ => ?_
  refine Sim.popInt fun _ _ => ?_
  refine Sim.popInt fun _ _ => ?_
  refine Sim.popFloat fun _ _ => ?_
  refine Sim.popFloat fun _ _ => ?_
  refine Sim.popFloat fun _ _ => ?_
  refine Sim.popInt fun _ _ => ?_
  refine Sim.popInt fun _ _ => ?_
  refine Sim.popDone ?_
  refine Sim.object (Builds.readClassArray3 ResourceStorage.builds) fun _ _ _ => ?_
  refine Sim.scalar fun _ => ?_
  refine Sim.object (Builds.readClassArray DamageGraphic.builds _ _) fun _ _ _ => ?_
  refine Sim.scalar fun _ => ?_
  refine Sim.scalar fun _ => ?_
  refine Sim.scalar fun _ => ?_
  refine Sim.scalar fun _ => ?_
  refine Sim.scalar fun _ => ?_
  refine Sim.scalar fun _ => ?_
  refine Sim.scalar fun _ => ?_
  refine Sim.scalar fun _ => ?_
  refine Sim.scalar fun _ => ?_
  refine Sim.scalar fun _ => ?_
  refine Sim.scalar fun _ => ?_
  refine Sim.object (Builds.readIf (Builds.float _) _) fun _ _ _ => ?_
  refine Sim.object (Builds.readIf (Builds.readClass DeadFish.builds) _) fun _ _ _ => ?_
  refine Sim.object (Builds.readIf (Builds.readClass Bird.builds) _) fun _ _ _ => ?_
  refine Sim.object (Builds.readIf (Builds.readClass Type50.builds) _) fun _ _ _ => ?_
  refine Sim.object (Builds.readIf (Builds.readClass Projectile.builds) _) fun _ _ _ => ?_
  refine Sim.object (Builds.readIf (Builds.readClass Creatable.builds) _) fun _ _ _ => ?_
  refine Sim.object (Builds.readIf (Builds.readClass Building.builds) _) fun _ _ _ => ?_
  apply Sim.storeHotKey
  · remove_tac
  intro _
  apply Sim.allocTuple
  · items_tac
  intro _ _
  apply Sim.allocTuple
  · items_tac
  intro _ _
  apply Sim.allocTuple
  · items_tac
  intro _ _
  apply Sim.allocTuple
  · items_tac
  intro _ _
  apply Sim.retObj rfl
  attrs_tac

theorem Unit.builds88 : Builds (Unit.build88) (Unit.fromBytes88) (fun ver => Unit.object (!ver.ge .VER_84)) := by
  intro P ver
  unfold Unit.build88 Unit.fromBytes88
  refine Sim.scalar fun _ => ?_
  refine Sim.popInt fun _ _ => ?_
  refine Sim.popInt fun _ _ => ?_
  refine Sim.popInt fun _ _ => ?_
  refine Sim.popInt fun _ _ => ?_
  refine Sim.popInt fun _ _ => ?_
  refine Sim.popInt fun _ _ => ?_
  refine Sim.popInt fun _ _ => ?_
  refine Sim.popInt fun _ _ => ?_
  refine Sim.popInt fun _ _ => ?_
  refine Sim.popInt fun _ _ => ?_
  refine Sim.popInt fun _ _ => ?_
  refine Sim.popFloat fun _ _ => ?_
  refine Sim.popInt fun _ _ => ?_
  refine Sim.popFloat fun _ _ => ?_
  refine Sim.popFloat fun _ _ => ?_
  refine Sim.popFloat fun _ _ => ?_
  refine Sim.popInt fun _ _ => ?_
  refine Sim.popInt fun _ _ => ?_
  refine Sim.popInt fun _ _ => ?_
  refine Sim.popInt fun _ _ => ?_
  refine Sim.popInt fun _ _ => ?_
  refine Sim.popInt fun _ _ => ?_
  refine Sim.popInt fun _ _ => ?_
  refine Sim.popInt fun _ _ => ?_
  refine Sim.popInt fun _ _ => ?_
  refine Sim.popInt fun _ _ => ?_
  refine Sim.popInt fun _ _ => ?_
  refine Sim.popInt fun _ _ => ?_
  refine Sim.popInt fun _ _ => ?_
  refine Sim.popInt fun _ _ => ?_
  refine Sim.popInt fun _ _ => ?_
  refine Sim.popFloat fun _ _ => ?_
  refine Sim.popFloat fun _ _ => ?_
  refine Sim.popInt fun _ _ => ?_
  refine Sim.popInt fun _ _ => ?_
  refine Sim.popInt fun _ _ => ?_
  refine Sim.popInt fun _ _ => ?_
  refine Sim.popInt fun _ _ => ?_
  refine Sim.popFloat fun _ _ => ?_
  refine Sim.popInt fun _ _ => ?_
  refine Sim.popInt fun _ _ => ?_
  refine Sim.popInt fun _ _ => ?_
  refine Sim.popInt fun _ _ => ?_
  refine Sim.popInt fun _ _ => ?_
  refine Sim.popFloat fun _ _ => ?_
  refine Sim.popInt fun _ _ => ?_
  refine Sim.popInt fun _ _ => ?_
  refine Sim.popInt fun _ _ => ?_
  refine Sim.popInt fun _ _ => ?_
  refine Sim.popInt fun _ _ => ?_
  refine Sim.popInt fun _ _ => ?_
  refine Sim.popInt fun _ _ => ?_
  refine Sim.popInt fun _ _ => ?_
  refine Sim.popInt fun _ _ => ?_
  refine Sim.popInt fun _ _ => ?_
  refine Sim.popInt fun _ _ => ?_
  refine Sim.popInt fun _ _ => ?_
  refine Sim.popInt fun _ _ => ?_
  refine Sim.popInt fun _ _ => ?_
  refine Sim.popInt fun _ _ => ?_
  refine Sim.popFloat fun _ _ => ?_
  refine Sim.popFloat fun _ _ => ?_
  refine Sim.popFloat fun _ _ => ?_
  refine Sim.popInt fun _ _ => ?_
  refine Sim.popInt fun _ _ => ?_
  refine Sim.popDone ?_
  refine Sim.object (Builds.readClassArray3 ResourceStorage.builds) fun _ _ _ => ?_
  refine Sim.scalar fun _ => ?_
  refine Sim.object (Builds.readClassArray DamageGraphic.builds _ _) fun _ _ _ => ?_
  refine Sim.scalar fun _ => ?_
  refine Sim.scalar fun _ => ?_
  refine Sim.scalar fun _ => ?_
  refine Sim.scalar fun _ => ?_
  refine Sim.scalar fun _ => ?_
  refine Sim.scalar fun _ => ?_
  refine Sim.scalar fun _ => ?_
  refine Sim.scalar fun _ => ?_
  refine Sim.scalar fun _ => ?_
  refine Sim.scalar fun _ => ?_
  refine Sim.scalar fun _ => ?_
  refine Sim.object (Builds.readIf (Builds.float _) _) fun _ _ _ => ?_
  refine Sim.object (Builds.readIf (Builds.readClass DeadFish.builds) _) fun _ _ _ => ?_
  refine Sim.object (Builds.readIf (Builds.readClass Bird.builds) _) fun _ _ _ => ?_
  refine Sim.object (Builds.readIf (Builds.readClass Type50.builds) _) fun _ _ _ => ?_
  refine Sim.object (Builds.readIf (Builds.readClass Projectile.builds) _) fun _ _ _ => ?_
  refine Sim.object (Builds.readIf (Builds.readClass Creatable.builds) _) fun _ _ _ => ?_
  refine Sim.object (Builds.readIf (Builds.readClass Building.builds) _) fun _ _ _ => ?_
  apply Sim.readHotKey
  · remove_tac
  apply Sim.allocTuple
  · items_tac
  intro _ _
  apply Sim.allocTuple
  · items_tac
  intro _ _
  apply Sim.allocTuple
  · items_tac
  intro _ _
  apply Sim.allocTuple
  · items_tac
  intro _ _
  apply Sim.retObj rfl
  attrs_tac

theorem Unit.builds : Builds Unit.build Unit.fromBytes (fun ver => Unit.object (!ver.ge .VER_84)) := by
  intro P ver
  unfold Unit.build Unit.fromBytes
  refine Sim.version ?_
  exact Sim.ite (fun _ => Unit.builds88 P ver) fun _ => Unit.builds84 P ver

theorem Civ.builds : Builds (Civ.build) (Civ.fromBytes) (fun ver => Civ.object (!ver.ge .VER_84)) := by
  intro P ver
  unfold Civ.build Civ.fromBytes
  refine Sim.scalar fun _ => ?_
  refine Sim.scalar fun _ => ?_
  refine Sim.scalar fun _ => ?_
  refine Sim.scalar fun _ => ?_
  refine Sim.scalar fun _ => ?_
  refine Sim.object (Builds.readFloatArray _) fun _ _ _ => ?_
  refine Sim.scalar fun _ => ?_
  refine Sim.scalar fun _ => ?_
  refine Sim.object (Builds.readInt32Array _) fun _ _ _ => ?_
  refine Sim.pointers Unit.builds (by remove_tac) fun _ _ _ => ?_
  apply Sim.retObj rfl
  attrs_tac

end Genie
