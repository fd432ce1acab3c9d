import Verif.Model.Task
/-!
# `/repo/src/genieutils/unitheaders.py`

Generated by `tools/gen_model.py` from the source text (reader and writer transcribed
independently, statement by statement).
-/

set_option linter.unusedVariables false

namespace Genie

/-- `class UnitHeaders` — `/repo/src/genieutils/unitheaders.py:8-11`. -/
structure UnitHeaders where
  exists_ : Int
  task_list : Option (List Task)
deriving DecidableEq, Inhabited

/-- `UnitHeaders.from_bytes` — `/repo/src/genieutils/unitheaders.py:14-23`. -/
def UnitHeaders.fromBytes : Reader UnitHeaders := do
  let exists_ ← readInt8
  if exists_ ≠ 0 then do
    let task_count ← readInt16
    let task_list ← readClassArray Task.fromBytes task_count
    return {
      exists_ := exists_,
      task_list := some task_list }
  else
    return {
      exists_ := exists_,
      task_list := none }

/-- `UnitHeaders.to_bytes` — `/repo/src/genieutils/unitheaders.py:25-30`. -/
def UnitHeaders.toBytes (version : Version) (self : UnitHeaders) : Py Bytes :=
  joinB [
    writeInt8 self.exists_,
    writeIf (self.exists_ ≠ 0) (fun task_list => writeInt16 task_list.length) self.task_list,
    writeIf (self.exists_ ≠ 0) (fun task_list => writeClassArray Task.toBytes task_list version)
      self.task_list]

end Genie
