import Verif.Spec.Primitives
import Verif.Spec.Api
import Verif.Proof.Api
import Verif.Proof.Containers
import Verif.Proof.Classes
import Verif.Proof.Records.DatFile
/-! # From `Good` to statements about arbitrary handlers -/

namespace Genie

theorem Good.string {v : Version} (n : Nat) : Good v (readString n) (fun _ => True) (fun _ _ => True) := by
  unfold readString
  refine Good.bind (Good.consumeRange n) fun c _ => ?_
  exact Good.liftPy (fun e he => Or.inr (Or.inr (strDecode_error he))) (fun _ _ => ⟨trivial, fun _ _ => trivial⟩)

theorem Good.weaken {v : Version} {r : Reader α} {Q : α → Prop} {P : α → Bytes → Prop} (h : Good v r Q P) :
    Good v r (fun _ => True) (fun _ _ => True) :=
  Good.mono h (fun _ _ => trivial) (fun _ _ _ _ => trivial)

theorem Primitive.good (p : Primitive) (v : Version) : Good v p.read (fun _ => True) (fun _ _ => True) := by
  cases p with
  | int_8 => exact Good.int8.weaken
  | int_16 s => cases s with | false => exact Good.uint16.weaken | true => exact Good.int16.weaken
  | int_32 s => cases s with | false => exact Good.uint32.weaken | true => exact Good.int32.weaken
  | float => exact Good.float.weaken
  | debug_string => exact Good.debugString.weaken
  | string n => exact Good.string n
  | int_8_array n => exact (Good.int8Array n).weaken
  | int_16_array n => exact (Good.int16Array n).weaken
  | int_32_array n => exact (Good.int32Array n).weaken
  | float_array n => exact (Good.floatArray n).weaken
  | int_8_array_2 => exact Good.int8Array2.weaken
  | int_8_array_3 => exact Good.int8Array3.weaken
  | int_8_array_5 => exact Good.int8Array5.weaken
  | int_8_array_6 => exact Good.int8Array6.weaken
  | int_8_array_10 => exact Good.int8Array10.weaken
  | int_16_array_2 => exact Good.int16Array2.weaken
  | int_16_array_3 => exact Good.int16Array3.weaken
  | int_16_array_4 => exact Good.int16Array4.weaken
  | int_16_array_6 => exact Good.int16Array6.weaken
  | int_32_array_10 => exact Good.int32Array10.weaken
  | float_array_2 => exact Good.floatArray2.weaken
  | float_array_3 => exact Good.floatArray3.weaken

/-- What `Good` says about a successful run. -/
theorem Good.ok {v : Version} {r : Reader α} {Q : α → Prop} {P : α → Bytes → Prop} (g : Good v r Q P)
    {h h' : ByteHandler} {a : α} (hv : h.version = v) (hr : r h = .ok (a, h')) :
    ∃ n l, h' = { h with offset := h.offset + n, lossy := h.lossy || l } ∧ Step v r Q P h a n l := by
  rcases g h hv with ⟨e, he, -⟩ | ⟨a', n, l, ha, st⟩
  · rw [hr] at he; simp at he
  · rw [hr] at ha
    simp only [Except.ok.injEq, Prod.mk.injEq] at ha
    obtain ⟨rfl, rfl⟩ := ha
    exact ⟨n, l, rfl, st⟩

theorem GoodFile.ok {r : Reader α} {Q : Version → α → Prop} {P : α → Bytes → Prop} (g : GoodFile r Q P)
    {h h' : ByteHandler} {a : α} (hr : r h = .ok (a, h')) :
    ∃ n l v, h' = { h with offset := h.offset + n, version := v, lossy := h.lossy || l } ∧
      FileStep r Q P h a n l v := by
  rcases g h with ⟨e, he, -⟩ | ⟨a', n, l, v, ha, st⟩
  · rw [hr] at he; simp at he
  · rw [hr] at ha
    simp only [Except.ok.injEq, Prod.mk.injEq] at ha
    obtain ⟨rfl, rfl⟩ := ha
    exact ⟨n, l, v, rfl, st⟩

end Genie
