import Verif.Props.C62_SourceIo
import Verif.Model.HeapScripts
/-!
# What scripts do to objects: they stay instances of classes of the package
-/

namespace Genie.Src

/-- Instances in a cell are of classes of the package. -/
def Cell.OfPackage (c : Cell) : Prop := ∀ n at', c = .record n at' → n ∈ dataclassNames

/-- After this there are only instances of classes of the package, if that was so before. -/
def Stays (f : HReader α) : Prop := ∀ H s v H' s', OfPackage H → f H s = .ok (v, H', s') → OfPackage H'

theorem Stays.pure (a : α) : Stays (Pure.pure a : HReader α) := by
  intro H s v H' s' hk h; cases h; exact hk

theorem Stays.raise (e : PyErr) : Stays (HReader.raise e : HReader α) := by
  intro H s v H' s' _ h; cases h

theorem Stays.bind {f : HReader α} {k : α → HReader β} (hf : Stays f) (hk : ∀ a, Stays (k a)) : Stays (f >>= k) := by
  intro H s v H' s' hp h
  obtain ⟨a, H1, s1, h1, h2⟩ := HReader_bind h
  exact hk a _ _ _ _ _ (hf _ _ _ _ _ hp h1) h2

theorem Stays.cell {o : HVal} {e : PyErr} {k : Cell → HReader β} (hk : ∀ c, Cell.OfPackage c → Stays (k c)) : Stays (HReader.cell o e >>= k) := by
  intro H s v H' s' hp h
  obtain ⟨c, H1, s1, h1, h2⟩ := HReader_bind h
  obtain ⟨a, rfl, hc, rfl⟩ := HReader_cell h1
  exact hk c (fun n at' hn => hp a n at' (hn ▸ hc)) _ _ _ _ _ hp h2

theorem Stays.alloc (c : Cell) (hc : Cell.OfPackage c) : Stays (HReader.alloc c) := by
  intro H s v H' s' hp h
  cases h
  intro a n at' ha
  rcases Nat.lt_or_ge a H.length with hl | hl
  · rw [List.getElem?_append_left hl] at ha; exact hp a n at' ha
  · rw [List.getElem?_append_right hl] at ha
    cases hj : a - H.length with
    | zero => rw [hj] at ha; exact hc n at' (by simpa using ha)
    | succ j => rw [hj] at ha; simp at ha

theorem Stays.update (o : HVal) (c : Cell) (hc : Cell.OfPackage c) : Stays (HReader.update o c) := by
  intro H s v H' s' hp h
  cases o with
  | ref b =>
    cases h
    intro a n at' ha
    rw [List.getElem?_set] at ha
    split at ha
    · split at ha
      · exact hc n at' (by simpa using ha)
      · cases ha
    · exact hp a n at' ha
  | _ => cases h

theorem Cell.OfPackage.list (vs : List HVal) : Cell.OfPackage (.list vs) := fun _ _ h => by cases h
theorem Cell.OfPackage.tuple (vs : List HVal) : Cell.OfPackage (.tuple vs) := fun _ _ h => by cases h
theorem Cell.OfPackage.record {n : PyStr} {as : List (PyStr × HVal)} (h : Cell.OfPackage (.record n as)) (bs : List (PyStr × HVal)) :
    Cell.OfPackage (.record n bs) := fun _ _ e => by cases e; exact h n as rfl

theorem Stays.copyItems {rec : HVal → Memo → HReader (HVal × Memo)} (h : ∀ v M, Stays (rec v M)) : ∀ vs M, Stays (HReader.copyItems rec vs M)
  | [], _ => .pure _
  | v :: vs, M => by
    unfold HReader.copyItems
    exact .bind (h v M) fun _ => .bind (Stays.copyItems h vs _) fun _ => .pure _

theorem Stays.copyAttrs {rec : HVal → Memo → HReader (HVal × Memo)} (h : ∀ v M, Stays (rec v M)) : ∀ vs M, Stays (HReader.copyAttrs rec vs M)
  | [], _ => .pure _
  | (n, v) :: vs, M => by
    unfold HReader.copyAttrs
    exact .bind (h v M) fun _ => .bind (Stays.copyAttrs h vs _) fun _ => .pure _

theorem Stays.deepcopy : ∀ depth v M, Stays (HReader.deepcopy depth v M)
  | 0, _, _ => .raise _
  | depth + 1, v, M => by
    have ih := Stays.deepcopy depth
    unfold HReader.deepcopy
    split
    · split
      · exact .pure _
      · refine .cell fun c hc => ?_
        split
        · exact .bind (.alloc _ (.list _)) fun _ => .bind (.copyItems ih _ _) fun _ => .bind (.update _ _ (.list _)) fun _ => .pure _
        · exact .bind (.alloc _ (hc.record _)) fun _ => .bind (.copyAttrs ih _ _) fun _ => .bind (.update _ _ (hc.record _)) fun _ => .pure _
        · refine .bind (.copyItems ih _ _) fun x => ?_
          dsimp only
          split
          · exact .pure _
          · split
            · exact .pure _
            · exact .bind (.alloc _ (.tuple _)) fun _ => .pure _
    · exact .pure _

/-- An operation that creates instances of classes of the package only. -/
def Op.ofPackage : Op → Prop
  | .new cls _ => cls ∈ dataclassNames
  | _ => True

theorem Stays.op (depth : Nat) (names : List HVal) (o : Op) (ho : Op.ofPackage o) : Stays (o.eval depth names) := by
  cases o <;> dsimp only [Op.eval]
  case getAttr o n => 
    unfold HReader.getAttr
    refine .cell fun c hc => ?_
    split
    · split
      · exact .pure _
      · exact .raise _
    · exact .raise _
  case getItem =>
    unfold HReader.getItemAt
    refine .cell fun c hc => ?_
    split
    · exact .raise _
    all_goals
      split
      · exact .raise _
      · split
        · exact .pure _
        · exact .raise _
  case len =>
    unfold HReader.len
    refine .bind (.cell fun c hc => ?_) fun _ => .pure _
    split
    · exact .pure _
    · exact .pure _
    · exact .raise _
  case same => exact .pure _
  case setAttr =>
    unfold HReader.setAttr
    refine .bind (.cell fun c hc => ?_) fun _ => .pure _
    split
    · split
      · exact .update _ _ (hc.record _)
      · split
        · exact .raise _
        · exact .update _ _ (hc.record _)
    · exact .raise _
  case setItem =>
    unfold HReader.setItemAt
    refine .cell fun c hc => ?_
    split
    · split
      · exact .raise _
      · exact .bind (.update _ _ (.list _)) fun _ => .pure _
    · exact .raise _
  case append =>
    unfold HReader.append
    refine .bind (.cell fun c hc => ?_) fun _ => .pure _
    split
    · exact .update _ _ (.list _)
    · exact .raise _
  case insert =>
    unfold HReader.insertAt
    refine .cell fun c hc => ?_
    split
    · exact .bind (.update _ _ (.list _)) fun _ => .pure _
    · exact .raise _
  case pop =>
    unfold HReader.popAt
    refine .cell fun c hc => ?_
    split
    · split
      · exact .raise _
      · split
        · exact .bind (.update _ _ (.list _)) fun _ => .pure _
        · exact .raise _
    · exact .raise _
  case delItem =>
    unfold HReader.delItemAt
    refine .cell fun c hc => ?_
    split
    · split
      · exact .raise _
      · exact .bind (.update _ _ (.list _)) fun _ => .pure _
    · exact .raise _
  case delSlice =>
    unfold HReader.delSliceAt
    refine .cell fun c hc => ?_
    split
    · exact .bind (.update _ _ (.list _)) fun _ => .pure _
    · exact .raise _
  case newList => exact .alloc _ (.list _)
  case newTuple => exact .alloc _ (.tuple _)
  case new => exact .alloc _ fun _ _ h => by cases h; exact ho
  case deepcopy => exact .bind (.deepcopy _ _ _) fun _ => .pure _
  case slice =>
    unfold HReader.sliceAt
    refine .cell fun c hc => ?_
    split
    · exact .alloc _ (.list _)
    · exact .alloc _ (.tuple _)
    · exact .raise _
  case extend =>
    unfold HReader.extendBy
    refine .cell fun c hc => ?_
    split
    · refine .cell fun d hd => ?_
      split
      · exact .bind (.update _ _ (.list _)) fun _ => .pure _
      · exact .bind (.update _ _ (.list _)) fun _ => .pure _
      · exact .raise _
    · exact .raise _
  case copy =>
    unfold HReader.copy
    split
    · refine .cell fun c hc => ?_
      split
      · exact .pure _
      · exact .alloc _ (.list _)
      · exact .alloc _ hc
    · exact .pure _

end Genie.Src
