import Verif.Proof.Source.Writes
/-!
# The source of `GenieClass.write_*` does what the model says
-/

namespace Genie.Src

variable {H : Heap} {s : ByteHandler}

/-- Decides whether `to_bytes` of a class takes the parameters `self` and `version` only. -/
def toBytesB (c : Name) : Bool :=
  match method c n!"to_bytes" with
  | none => false
  | some (_, f) => (find n!"signed" f.params).isNone

theorem toBytes_known : ∀ c ∈ W.methods.map (·.1), toBytesB (Name.ofStr c) = true := by
  have h : (W.methods.map (·.1)).all (fun c => toBytesB (Name.ofStr c)) = true := by decide +kernel
  exact List.all_eq_true.mp h

/-- `content.to_bytes(length, 'little', signed=signed)` of any object. -/
theorem plain_to_bytes (hk : Known H) {n : Nat} (hn : 1 ≤ n) (v : HVal) (k : Int) (signed : Bool) :
    Wr H s PVal.bytes (objMethod (callN n) v n!"to_bytes" ⟨[.h (.int k), .text "little"], [(n!"signed", .bool signed)]⟩)
      (W.intToBytes H v k.toNat signed) := by
  intro _
  cases v with
  | none => rfl
  | float x => rfl
  | str x => rfl
  | int i =>
    have e : W.intToBytes H (.int i) k.toNat signed = intToBytes i k.toNat signed := rfl
    rw [e]
    show andThen (pyM (intToBytes i k.toNat signed)) (fun b => done (PVal.bytes b)) H s = _
    cases intToBytes i k.toNat signed <;> rfl
  | ref a =>
    have e : W.intToBytes H (.ref a) k.toNat signed = match H[a]? with
      | some (.record _ _) => .error .typeError
      | _ => .error .attributeError := rfl
    rw [e]
    have hc : W.cell H (.ref a) = H[a]? := rfl
    unfold objMethod
    rw [hc]
    cases h : H[a]? with
    | none => rfl
    | some c =>
      cases c with
      | list xs => rfl
      | tuple xs => rfl
      | record c attrs =>
        have h1 := toBytes_known c (hk a c attrs h)
        obtain ⟨n, rfl⟩ : ∃ m, n = m + 1 := ⟨n - 1, by omega⟩
        show run (callN n) (.h (.ref a)) (Name.ofStr c) n!"to_bytes" _ H s = Except.error PyErr.typeError
        unfold toBytesB at h1
        unfold run
        cases hm : method (Name.ofStr c) n!"to_bytes" with
        | none => rw [hm] at h1; cases h1
        | some x =>
          obtain ⟨m, g⟩ := x
          rw [hm] at h1
          have h2 : find n!"signed" g.params = none := Option.isNone_iff_eq_none.mp h1
          have : knownKw g.params [(n!"signed", PVal.bool signed)] = false := by
            simp only [knownKw, h2]
          dsimp only
          rw [this]
          rfl

/-- `Int.to_bytes` — `/repo/src/genieutils/datatypes.py:23-25`. -/
theorem Int_to_bytes {n : Nat} (hk : Known H) (hn : 2 ≤ n) (v : HVal) (k : Int) (signed : Bool) :
    Wr H s PVal.bytes (callN n (.cls n!"Int") n!"Int" n!"to_bytes" ⟨[.h v], [(n!"length", .h (.int k)), (n!"signed", .bool signed)]⟩)
      (W.intToBytes H v k.toNat signed) := by
  write_fun
  exact (plain_to_bytes hk (by omega) v k signed).tail _

/-- `Float.to_bytes` — `/repo/src/genieutils/datatypes.py:32-34`. -/
theorem Float_to_bytes {n : Nat} (hn : 1 ≤ n) (v : HVal) :
    Wr H s PVal.bytes (callN n (.cls n!"Float") n!"Float" n!"to_bytes" ⟨[.h v], []⟩) (W.float (.ok v)) := by
  write_fun
  exact ((Wr.py (W.packNative v)).tail _).tail _

theorem write_int_8 {n : Nat} (hk : Known H) (hn : 3 ≤ n) (self v : HVal) :
    Wr H s PVal.bytes (callN n (.h self) n!"GenieClass" n!"write_int_8" ⟨[.h v], []⟩) (W.int8 H (.ok v)) := by
  write_fun
  exact (Int_to_bytes hk (by omega) v 1 false).tail _

theorem write_int_16 {n : Nat} (hk : Known H) (hn : 3 ≤ n) (self v : HVal) :
    Wr H s PVal.bytes (callN n (.h self) n!"GenieClass" n!"write_int_16" ⟨[.h v], []⟩) (W.int16 H (.ok v)) := by
  write_fun
  exact (Int_to_bytes hk (by omega) v 2 true).tail _

theorem write_int_16_signed {n : Nat} (hk : Known H) (hn : 3 ≤ n) (self v : HVal) (signed : Bool) :
    Wr H s PVal.bytes (callN n (.h self) n!"GenieClass" n!"write_int_16" ⟨[.h v], [(n!"signed", .bool signed)]⟩) (W.int16 H (.ok v) signed) := by
  write_fun
  exact (Int_to_bytes hk (by omega) v 2 signed).tail _

theorem write_int_16_if {n : Nat} (hk : Known H) (hn : 3 ≤ n) (self v : HVal) (c : Bool) :
    Wr H s PVal.bytes (callN n (.h self) n!"GenieClass" n!"write_int_16" ⟨[.h v], [(n!"if_", .bool c)]⟩) (W.int16If H (.ok v) c) := by
  cases c
  · write_fun
    exact Wr.done _
  · write_fun
    exact (Int_to_bytes hk (by omega) v 2 true).tail _

theorem write_int_32 {n : Nat} (hk : Known H) (hn : 3 ≤ n) (self v : HVal) :
    Wr H s PVal.bytes (callN n (.h self) n!"GenieClass" n!"write_int_32" ⟨[.h v], []⟩) (W.int32 H (.ok v)) := by
  write_fun
  exact (Int_to_bytes hk (by omega) v 4 true).tail _

theorem write_int_32_signed {n : Nat} (hk : Known H) (hn : 3 ≤ n) (self v : HVal) (signed : Bool) :
    Wr H s PVal.bytes (callN n (.h self) n!"GenieClass" n!"write_int_32" ⟨[.h v], [(n!"signed", .bool signed)]⟩) (W.int32 H (.ok v) signed) := by
  write_fun
  exact (Int_to_bytes hk (by omega) v 4 signed).tail _

theorem write_float {n : Nat} (hn : 2 ≤ n) (self v : HVal) :
    Wr H s PVal.bytes (callN n (.h self) n!"GenieClass" n!"write_float" ⟨[.h v], []⟩) (W.float (.ok v)) := by
  write_fun
  exact (Float_to_bytes (by omega) v).tail _

/-! ## strings -/

/-- No class has a method of this name. -/
def noMethod (a : Name) (cs : List Cls) : Bool := cs.all fun c => (findFun a c.funs).isNone

theorem noMethod_of {a c : Name} (h : noMethod a classes = true) : method c a = none := by
  have key : ∀ d ∈ classes, findFun a d.funs = none := fun d hd => Option.isNone_iff_eq_none.mp (List.all_eq_true.mp h d hd)
  unfold method
  cases hc : findCls c classes with
  | none => rfl
  | some d =>
    dsimp only
    rw [key d (findCls_mem hc)]
    dsimp only
    split
    · rfl
    · rename_i hb
      rw [key _ (findCls_mem hb)]

/-- `v.encode('utf-8')` of any object. -/
theorem plain_encode {n : Nat} (hn : 1 ≤ n) (v : HVal) (as : Args) (ha : as = ⟨[], []⟩ ∨ as = ⟨[.text "utf-8"], []⟩) :
    Wr H s PVal.bytes (objMethod (callN n) v n!"encode" as) (W.encode v) := by
  have plain : W.cell H v = none ∨ (∃ xs, W.cell H v = some (Cell.list xs)) ∨ (∃ xs, W.cell H v = some (Cell.tuple xs)) →
      Wr H s PVal.bytes (objMethod (callN n) v n!"encode" as) (W.encode v) := by
    intro hc _
    have : objMethod (callN n) v n!"encode" as H s = plainMethod v n!"encode" as H s := by
      unfold objMethod
      rcases hc with h | ⟨_, h⟩ | ⟨_, h⟩ <;> rw [h]
    rw [this]
    rcases ha with rfl | rfl
    · show andThen (pyM (W.encode v)) (fun b => done (PVal.bytes b)) H s = _
      cases W.encode v <;> rfl
    · show andThen (pyM (W.encode v)) (fun b => done (PVal.bytes b)) H s = _
      cases W.encode v <;> rfl
  cases hc : W.cell H v with
  | none => exact plain (Or.inl hc)
  | some c =>
    cases c with
    | list xs => exact plain (Or.inr (Or.inl ⟨xs, hc⟩))
    | tuple xs => exact plain (Or.inr (Or.inr ⟨xs, hc⟩))
    | record c attrs =>
      have hv : W.encode v = Except.error PyErr.attributeError := by
        cases v with
        | ref a => rfl
        | _ => cases hc
      rw [hv]
      intro _
      obtain ⟨n, rfl⟩ : ∃ m, n = m + 1 := ⟨n - 1, by omega⟩
      unfold objMethod
      rw [hc]
      show run (callN n) (.h v) (Name.ofStr c) n!"encode" _ H s = Except.error PyErr.attributeError
      unfold run
      rw [noMethod_of (by decide +kernel)]
      rfl

theorem write_int_16_unsigned {n : Nat} (hk : Known H) (hn : 3 ≤ n) (self : HVal) (i : Int) :
    Wr H s PVal.bytes (callN n (.h self) n!"GenieClass" n!"write_int_16" ⟨[.h (.int i)], [(n!"signed", .bool false)]⟩)
      (writeInt16 i (signed := false)) :=
  write_int_16_signed hk hn self (.int i) false

/-- `len(encoded)` of `bytes` and the three parts of a debug string. -/
theorem write_debug_string {n : Nat} (hk : Known H) (hn : 4 ≤ n) {c : Name} {self : HVal} (hi : IsA H self c) (hg : IsGenie c) (v : HVal) :
    Wr H s PVal.bytes (callN n (.h self) n!"GenieClass" n!"write_debug_string" ⟨[.h v], []⟩) (W.debugString (.ok v)) := by
  write_fun
  refine Wr.bind (g := W.encode v) (plain_encode (by omega) v _ (Or.inr rfl)) fun b => ?_
  peel
  refine Wr.join ?_
  refine Wr.elem (g := writeInt16 0x0A60 (signed := false))
    (Wr.base hi hg (by decide) (write_int_16_unsigned hk (by omega) self _)) fun b1 => ?_
  peel
  refine Wr.elem (g := writeInt16 b.length (signed := false))
    (Wr.base hi hg (by decide) (write_int_16_unsigned hk (by omega) self b.length)) fun b2 => ?_
  peel
  refine Wr.done' ?_
  simp

/-- `write_string(8, …)` — `/repo/src/genieutils/common.py:44-45`, `/repo/src/genieutils/datatypes.py:10-15`. -/
theorem write_string {n : Nat} (hn : 3 ≤ n) (self v : HVal) :
    Wr H s PVal.bytes (callN n (.h self) n!"GenieClass" n!"write_string" ⟨[.h (.int 8), .h v], []⟩) (W.string 8 (.ok v)) := by
  write_fun
  refine Wr.tail (F := Flow.ret) ?_ 
  write_fun
  refine Wr.bind (g := W.encode v) (plain_encode (by omega) v _ (Or.inl rfl)) fun b => ?_
  peel
  refine Wr.done' ?_
  have e : (8 - (b.length : Int)).toNat = 8 - b.length := by omega
  simp [e]

end Genie.Src
