import Verif.Proof.Source.ScriptsKeep
import Verif.Model.HeapPrograms
/-!
# Statements on loaded objects: they stay instances of classes of the package
-/

namespace Genie.Src

mutual
/-- The instances in this value are of classes of the package. -/
def Packaged : ObjTree → Prop
  | .obj cls ts => cls ∈ dataclassNames ∧ PackagedAttrs ts
  | .list ts => PackagedItems ts
  | .tuple ts => PackagedItems ts
  | _ => True
/-- In all these values. -/
def PackagedItems : List ObjTree → Prop
  | [] => True
  | t :: ts => Packaged t ∧ PackagedItems ts
/-- In all these attributes. -/
def PackagedAttrs : List (PyStr × ObjTree) → Prop
  | [] => True
  | (_, t) :: ts => Packaged t ∧ PackagedAttrs ts
end

mutual
theorem Stays.new : ∀ t : ObjTree, Packaged t → Stays (HReader.new t)
  | .none, _ => by unfold HReader.new; exact .pure _
  | .int _, _ => by unfold HReader.new; exact .pure _
  | .float _, _ => by unfold HReader.new; exact .pure _
  | .str _, _ => by unfold HReader.new; exact .pure _
  | .list ts, h => by
    unfold HReader.new
    unfold Packaged at h
    exact .bind (Stays.newItems ts h) fun _ => .alloc _ (.list _)
  | .tuple ts, h => by
    unfold HReader.new
    unfold Packaged at h
    exact .bind (Stays.newItems ts h) fun _ => .alloc _ (.tuple _)
  | .obj cls ts, h => by
    unfold HReader.new
    unfold Packaged at h
    exact .bind (Stays.newAttrs ts h.2) fun _ => .alloc _ (fun n at' e => by cases e; exact h.1)
theorem Stays.newItems : ∀ ts : List ObjTree, PackagedItems ts → Stays (HReader.newItems ts)
  | [], _ => by unfold HReader.newItems; exact .pure _
  | t :: ts, h => by
    unfold HReader.newItems
    unfold PackagedItems at h
    exact .bind (Stays.new t h.1) fun _ => .bind (Stays.newItems ts h.2) fun _ => .pure _
theorem Stays.newAttrs : ∀ ts : List (PyStr × ObjTree), PackagedAttrs ts → Stays (HReader.newAttrs ts)
  | [], _ => by unfold HReader.newAttrs; exact .pure _
  | (_, t) :: ts, h => by
    unfold HReader.newAttrs
    unfold PackagedAttrs at h
    exact .bind (Stays.new t h.1) fun _ => .bind (Stays.newAttrs ts h.2) fun _ => .pure _
end

theorem Stays.getAttr (o : HVal) (n : PyStr) : Stays (HReader.getAttr o n) := by
  unfold HReader.getAttr
  refine .cell fun c hc => ?_
  split
  · split
    · exact .pure _
    · exact .raise _
  · exact .raise _

theorem Stays.getItem (o : HVal) (i : Nat) : Stays (HReader.getItem o i) := by
  unfold HReader.getItem
  refine .cell fun c hc => ?_
  split
  · split
    · exact .pure _
    · exact .raise _
  · split
    · exact .pure _
    · exact .raise _
  · exact .raise _

theorem Stays.eval : ∀ (p : ObjPath) (o : HVal), Stays (HReader.eval o p)
  | [], _ => .pure _
  | .attr _ :: p, _ => by unfold HReader.eval; exact .bind (.getAttr _ _) fun _ => Stays.eval p _
  | .item _ :: p, _ => by unfold HReader.eval; exact .bind (.getItem _ _) fun _ => Stays.eval p _

theorem Stays.stmt (o v : HVal) (st : Stmt) : Stays (st.run o v) := by
  cases st <;> dsimp only [Stmt.run]
  case setAttr =>
    unfold HReader.setAttr
    refine .cell fun c hc => ?_
    split
    · split
      · exact .update _ _ (hc.record _)
      · split
        · exact .raise _
        · exact .update _ _ (hc.record _)
    · exact .raise _
  case setItem =>
    unfold HReader.setItem
    refine .cell fun c hc => ?_
    split
    · split
      · exact .update _ _ (.list _)
      · exact .raise _
    · exact .raise _
  case append =>
    unfold HReader.append
    refine .cell fun c hc => ?_
    split
    · exact .update _ _ (.list _)
    · exact .raise _
  case pop =>
    unfold HReader.pop
    refine .cell fun c hc => ?_
    split
    · split
      · exact .raise _
      · exact .update _ _ (.list _)
    · exact .raise _
  case insert =>
    unfold HReader.insert
    refine .cell fun c hc => ?_
    split
    · exact .update _ _ (.list _)
    · exact .raise _
  case delItem =>
    unfold HReader.delItem
    refine .cell fun c hc => ?_
    split
    · split
      · exact .update _ _ (.list _)
      · exact .raise _
    · exact .raise _
  case delSlice =>
    unfold HReader.delSlice
    refine .cell fun c hc => ?_
    split
    · exact .update _ _ (.list _)
    · exact .raise _

theorem Stays.runEdits (data : HVal) : ∀ es : List Edit, (∀ e ∈ es, Packaged e.value) → Stays (Genie.runEdits data es)
  | [], _ => .pure _
  | e :: es, h => by
    unfold Genie.runEdits
    exact .bind (.new _ (h e List.mem_cons_self)) fun _ => .bind (.eval _ _) fun _ => .bind (.stmt _ _ _) fun _ =>
      Stays.runEdits data es fun e he => h e (List.mem_cons_of_mem _ he)

end Genie.Src
