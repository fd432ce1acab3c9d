import Verif.Spec.Stream
import Verif.Proof.Classes
import Verif.Model.Datfile
/-!
# Readers on data that arrives bit by bit

`Decides r`: finitely many bytes decide the outcome of `r`, and it is not a `struct.error`.
-/

namespace Genie

def Decides (r : Reader α) : Prop :=
  ∀ (s : Nat → UInt8) (o : Nat) (v : Version) (l : Bool), ∃ N,
    (∃ e, e ≠ .structError ∧ ∀ c, arrived s N <+: c → r ⟨c, o, v, l⟩ = .error e) ∨
    (∃ a o' v' l', ∀ c, arrived s N <+: c → r ⟨c, o, v, l⟩ = .ok (a, ⟨c, o', v', l'⟩))

theorem arrived_prefix (s : Nat → UInt8) {n m : Nat} (h : n ≤ m) : arrived s n <+: arrived s m := by
  obtain ⟨k, rfl⟩ := Nat.exists_eq_add_of_le h
  unfold arrived
  rw [List.range_add, List.map_append]
  exact List.prefix_append _ _

theorem arrived_of_max {s : Nat → UInt8} {n m : Nat} {c : Bytes} (h : arrived s (max n m) <+: c) :
    arrived s n <+: c ∧ arrived s m <+: c :=
  ⟨(arrived_prefix s (by omega)).trans h, (arrived_prefix s (by omega)).trans h⟩

theorem Decides.pure (a : α) : Decides (pure a : Reader α) := fun s o v l => ⟨0, .inr ⟨a, o, v, l, fun _ _ => rfl⟩⟩

theorem Decides.bind {r : Reader α} {f : α → Reader β} (h1 : Decides r) (h2 : ∀ a, Decides (f a)) : Decides (r >>= f) := by
  intro s o v l
  have hb : ∀ h : ByteHandler, (r >>= f) h = match r h with | .error e => .error e | .ok (a, h') => f a h' := fun _ => rfl
  obtain ⟨N, ⟨e, he, h⟩ | ⟨a, o', v', l', h⟩⟩ := h1 s o v l
  · exact ⟨N, .inl ⟨e, he, fun c hc => by rw [hb, h c hc]⟩⟩
  · obtain ⟨M, ⟨e, he, k⟩ | ⟨b, o2, v2, l2, k⟩⟩ := h2 a s o' v' l'
    · exact ⟨max N M, .inl ⟨e, he, fun c hc => by rw [hb, h c (arrived_of_max hc).1]; exact k c (arrived_of_max hc).2⟩⟩
    · exact ⟨max N M, .inr ⟨b, o2, v2, l2, fun c hc => by rw [hb, h c (arrived_of_max hc).1]; exact k c (arrived_of_max hc).2⟩⟩

theorem Decides.raise {e : PyErr} (h : e ≠ .structError) : Decides (Genie.raise e : Reader α) :=
  fun _ _ _ _ => ⟨0, .inl ⟨e, h, fun _ _ => rfl⟩⟩

theorem Decides.noteLossy {b : Bool} : Decides (Genie.noteLossy b) := fun _ o v l => ⟨0, .inr ⟨(), o, v, l || b, fun _ _ => rfl⟩⟩
theorem Decides.getVersion : Decides Genie.getVersion := fun _ o v l => ⟨0, .inr ⟨v, o, v, l, fun _ _ => rfl⟩⟩
theorem Decides.setVersion {w : Version} : Decides (Genie.setVersion w) := fun _ o _ l => ⟨0, .inr ⟨(), o, w, l, fun _ _ => rfl⟩⟩

theorem Decides.liftPy {x : Py α} (h : x ≠ .error .structError) : Decides (Genie.liftPy x) := by
  intro s o v l
  cases x with
  | error e => exact ⟨0, .inl ⟨e, fun he => h (by rw [he]), fun _ _ => rfl⟩⟩
  | ok a => exact ⟨0, .inr ⟨a, o, v, l, fun _ _ => rfl⟩⟩

theorem slice_arrived {s : Nat → UInt8} {o n : Nat} {c : Bytes} (h : arrived s (o + n) <+: c) :
    slice c o (o + n) = (List.range n).map fun i => s (o + i) := by
  obtain ⟨t, rfl⟩ := h
  apply List.ext_getElem
  · simp [slice, arrived]
  · intro i h1 h2
    simp [slice, arrived]

/-- After enough data, exactly `n` bytes are returned. -/
theorem Decides.range {n : Nat} {f : Bytes → Reader β} (h : ∀ c : Bytes, c.length = n → Decides (f c)) :
    Decides (consumeRange n >>= f) := by
  intro s o v l
  obtain ⟨N, k⟩ := h ((List.range n).map fun i => s (o + i)) (by simp) s (o + n) v l
  have hb : ∀ c, arrived s (o + n) <+: c → (consumeRange n >>= f) ⟨c, o, v, l⟩ =
      f ((List.range n).map fun i => s (o + i)) ⟨c, o + n, v, l⟩ := by
    intro c hc
    show f (slice c o (o + n)) ⟨c, o + n, v, l || decide (0 < n ∧ c.length < o + n)⟩ = _
    rw [slice_arrived hc]
    congr
    have h1 := hc.length_le
    have h2 : (arrived s (o + n)).length = o + n := by simp [arrived]
    rw [decide_eq_false (by omega), Bool.or_false]
  refine ⟨max N (o + n), ?_⟩
  rcases k with ⟨e, he, k⟩ | ⟨a, o', v', l', k⟩
  · exact .inl ⟨e, he, fun c hc => by rw [hb c (arrived_of_max hc).2]; exact k c (arrived_of_max hc).1⟩
  · exact .inr ⟨a, o', v', l', fun c hc => by rw [hb c (arrived_of_max hc).2]; exact k c (arrived_of_max hc).1⟩

theorem Decides.int8 : Decides readInt8 := Decides.range fun _ _ => Decides.pure _
theorem Decides.int16 {s : Bool} : Decides (readInt16 s) := Decides.range fun _ _ => Decides.pure _
theorem Decides.int32 {s : Bool} : Decides (readInt32 s) := Decides.range fun _ _ => Decides.pure _

theorem Decides.float : Decides readFloat := Decides.range fun c hc =>
  Decides.bind Decides.noteLossy fun _ => Decides.liftPy (by
    unfold Float_from_bytes unpackNativeF; rw [if_pos hc]; simp)

theorem String_from_bytes_ne (c : Bytes) : String_from_bytes c ≠ .error .structError := by
  intro h
  have := strDecode_error h
  cases this

theorem Decides.string {n : Nat} : Decides (readString n) := Decides.range fun c _ => Decides.liftPy (String_from_bytes_ne c)

theorem Decides.debugString : Decides readDebugString := by
  refine Decides.bind Decides.int16 fun a => ?_
  split
  · exact Decides.raise (by simp)
  · refine Decides.bind Decides.int16 fun b => ?_
    exact Decides.range fun c _ => Decides.bind Decides.noteLossy fun _ => Decides.liftPy (String_from_bytes_ne c)

theorem Decides.repeatR {r : Reader α} (h : Decides r) (n : Nat) : Decides (Genie.repeatR r n) := by
  induction n with
  | zero => exact Decides.pure _
  | succ n ih => exact Decides.bind h fun _ => Decides.bind ih fun _ => Decides.pure _

theorem Decides.array {r : Reader α} {n : Int} {b : Bool} (h : Decides r) : Decides (readArray r n b) :=
  Decides.bind Decides.noteLossy fun _ => Decides.repeatR h _

theorem Decides.readIf {c : Prop} [Decidable c] {r : Reader α} (h : Decides r) : Decides (Genie.readIf c r) := by
  unfold Genie.readIf
  split
  · exact Decides.bind h fun _ => Decides.pure _
  · exact Decides.pure _

theorem Decides.readOr {c : Prop} [Decidable c] {r : Reader α} {a : α} (h : Decides r) : Decides (Genie.readOr c r a) := by
  unfold Genie.readOr
  split
  · exact h
  · exact Decides.pure _

theorem Decides.pointersFrom {r : Reader α} (h : Decides r) (ps : List Int) (i n : Nat) : Decides (readPointersFrom r ps i n) := by
  induction n generalizing i with
  | zero => exact Decides.pure _
  | succ n ih =>
    unfold readPointersFrom
    split
    · exact Decides.raise (by simp)
    · exact Decides.bind Decides.noteLossy fun _ => Decides.bind (Decides.readIf h) fun _ =>
        Decides.bind (ih _) fun _ => Decides.pure _

theorem Decides.pointers {r : Reader α} {n : Int} {ps : List Int} (h : Decides r) : Decides (readClassArrayWithPointers r n ps) :=
  Decides.pointersFrom h _ _ _

theorem Decides.unpack {fmt : String} {n : Nat} (h : (parseFmt fmt).map codesSize = some n) : Decides (unpackFrom fmt n) :=
  Decides.range fun c hc => Decides.bind Decides.noteLossy fun _ => Decides.liftPy (by
    unfold structUnpack
    cases hp : parseFmt fmt with
    | none => rw [hp] at h; simp at h
    | some cs =>
      rw [hp] at h
      simp only [Option.map_some, Option.some.injEq] at h
      simp [hc, h])

theorem Decides.popInt {vs : List Val} {k : Int → List Val → Reader β} (h : ∀ i vs, Decides (k i vs)) : Decides (Genie.popInt vs k) := by
  unfold Genie.popInt
  split
  · exact h _ _
  · exact Decides.raise (by simp)
  · exact Decides.raise (by simp)

theorem Decides.popFloat {vs : List Val} {k : PyFloat → List Val → Reader β} (h : ∀ i vs, Decides (k i vs)) :
    Decides (Genie.popFloat vs k) := by
  unfold Genie.popFloat
  split
  · exact h _ _
  · exact Decides.raise (by simp)
  · exact Decides.raise (by simp)

theorem Decides.popDone {vs : List Val} {k : Reader β} (h : Decides k) : Decides (Genie.popDone vs k) := by
  unfold Genie.popDone
  split
  · exact h
  · exact Decides.raise (by simp)

theorem Version.ofStr_ne (s : PyStr) : Version.ofStr s ≠ .error .structError := by
  unfold Version.ofStr
  split <;> simp

theorem Decides.class_ {r : Reader α} (h : Decides r) : Decides (readClass r) := h
theorem Decides.classArray {r : Reader α} {n : Int} {b : Bool} (h : Decides r) : Decides (readClassArray r n b) := Decides.array h
theorem Decides.withParam {r : Int → Reader α} {n m : Int} (h : Decides (r m)) : Decides (readClassArrayWithParam r n m) := Decides.array h
theorem Decides.int8Array {n : Int} : Decides (readInt8Array n) := Decides.array Decides.int8
theorem Decides.int16Array {n : Int} : Decides (readInt16Array n) := Decides.array Decides.int16
theorem Decides.int32Array {n : Int} : Decides (readInt32Array n) := Decides.array Decides.int32
theorem Decides.floatArray {n : Int} : Decides (readFloatArray n) := Decides.array Decides.float

/-- A fixed number of reads, one after the other. -/
macro "decides_fixed" : tactic => `(tactic| repeat (first
  | exact Decides.pure _ | exact Decides.int8 | exact Decides.int16 | exact Decides.int32 | exact Decides.float | assumption
  | (refine Decides.bind ?_ fun _ => ?_)))

theorem Decides.int8Array2 : Decides readInt8Array2 := by unfold readInt8Array2; decides_fixed
theorem Decides.int8Array3 : Decides readInt8Array3 := by unfold readInt8Array3; decides_fixed
theorem Decides.int8Array5 : Decides readInt8Array5 := by unfold readInt8Array5; decides_fixed
theorem Decides.int8Array6 : Decides readInt8Array6 := by unfold readInt8Array6; decides_fixed
theorem Decides.int8Array10 : Decides readInt8Array10 := by unfold readInt8Array10; decides_fixed
theorem Decides.int16Array2 : Decides readInt16Array2 := by unfold readInt16Array2; decides_fixed
theorem Decides.int16Array3 : Decides readInt16Array3 := by unfold readInt16Array3; decides_fixed
theorem Decides.int16Array4 : Decides readInt16Array4 := by unfold readInt16Array4; decides_fixed
theorem Decides.int16Array6 : Decides readInt16Array6 := by unfold readInt16Array6; decides_fixed
theorem Decides.int32Array10 : Decides readInt32Array10 := by unfold readInt32Array10; decides_fixed
theorem Decides.floatArray2 : Decides readFloatArray2 := by unfold readFloatArray2; decides_fixed
theorem Decides.floatArray3 : Decides readFloatArray3 := by unfold readFloatArray3; decides_fixed
theorem Decides.classArray3 {r : Reader α} (h : Decides r) : Decides (readClassArray3 r) := by unfold readClassArray3; decides_fixed
theorem Decides.classArray4 {r : Reader α} (h : Decides r) : Decides (readClassArray4 r) := by unfold readClassArray4; decides_fixed

/-- Prove a goal `Decides (do …)`. -/
macro "decides" : tactic => `(tactic| with_reducible repeat (first
  | exact Decides.pure _
  | refine Decides.popInt fun _ _ => ?_ | refine Decides.popFloat fun _ _ => ?_ | refine Decides.popDone ?_
  | (refine Decides.bind ?_ fun _ => ?_)
  | exact Decides.int8 | exact Decides.int16 | exact Decides.int32 | exact Decides.float
  | exact Decides.string | exact Decides.debugString | exact Decides.getVersion | exact Decides.noteLossy
  | exact Decides.int8Array | exact Decides.int16Array | exact Decides.int32Array | exact Decides.floatArray
  | exact Decides.int8Array2 | exact Decides.int8Array3 | exact Decides.int8Array5 | exact Decides.int8Array6 | exact Decides.int8Array10
  | exact Decides.int16Array2 | exact Decides.int16Array3 | exact Decides.int16Array4 | exact Decides.int16Array6
  | exact Decides.int32Array10 | exact Decides.floatArray2 | exact Decides.floatArray3
  | assumption
  | refine Decides.class_ ?_ | refine Decides.classArray ?_ | refine Decides.classArray3 ?_ | refine Decides.classArray4 ?_
  | refine Decides.pointers ?_ | refine Decides.readIf ?_ | refine Decides.readOr ?_ | refine Decides.withParam ?_
  | exact Decides.unpack (by decide)
  | split))

end Genie
