import Verif.Proof.Source.Reads
import Verif.Model.TextUnit
import Verif.Model.Source
import Verif.Model.SourceIo
/-!
# What the parser makes of the files: the trees

By computation in the kernel: the text of a file is one closed term, its tree another.
-/

namespace Genie.Src.Text

/-- The trees of `/repo/src/genieutils/task.py`. -/
def tree_task : Parsed where
  globals := module_task.globals
  classes := [Task.src]
  funs := []
  body := .done

theorem reads_task : parseModule n!"task" text_task = some tree_task := Parsed.same_eq (by decide +kernel)

/-- The trees of `/repo/src/genieutils/unit.py`. -/
def tree_unit : Parsed where
  globals := module_unit.globals
  classes := [ResourceStorage.src, DamageGraphic.src, DeadFish.src, Bird.src, AttackOrArmor.src, Type50.src, Projectile.src, ResourceCost.src, TrainLocation.src, Creatable.src, BuildingAnnex.src, Building.src, Unit.src]
  funs := []
  body := .done

theorem reads_unit : parseModule n!"unit" text_unit = some tree_unit := Parsed.same_eq (by decide +kernel)

end Genie.Src.Text
