import Verif.Proof.Source.WriteBase
/-!
# The source of `GenieClass.write_*_array` and `write_class` does what the model says
-/

namespace Genie.Src

variable {H : Heap} {s : ByteHandler}

/-- The elements of `b''.join`, as a list. -/
def allB : List (Py Bytes) → Py (List Bytes)
  | [] => .ok []
  | w :: ws => w >>= fun b => allB ws >>= fun bs => .ok (b :: bs)

theorem joinB_all : ∀ ws : List (Py Bytes), joinB ws = allB ws >>= fun bs => .ok bs.flatten
  | [] => rfl
  | .error e :: ws => rfl
  | .ok b :: ws => by
    have e1 : joinB (.ok b :: ws) = match joinB ws with
      | .error e => .error e
      | .ok bs => .ok (b ++ bs) := rfl
    have e2 : allB (.ok b :: ws) = allB ws >>= fun bs => .ok (b :: bs) := rfl
    rw [e1, e2, joinB_all ws]
    cases allB ws <;> rfl

/-- The representation of the elements. -/
abbrev allBytes (bs : List Bytes) : List PVal := bs.map PVal.bytes

/-- `w(v) for v in vs`. -/
theorem Wr.forEach {F : HVal → M (List PVal) → M (List PVal)} {B : HVal → M PVal} {w : HVal → Py Bytes}
    (hF : ∀ v more, F v more = Src.andThen (B v) fun b => Src.andThen more fun ws => Src.done (b :: ws))
    (hB : ∀ v, Wr H s PVal.bytes (B v) (w v)) : ∀ vs, Wr H s allBytes (Src.forEach F vs) (allB (vs.map w))
  | [] => Wr.done' rfl
  | v :: vs => by
    show Wr H s allBytes (F v (Src.forEach F vs)) (w v >>= fun b => allB (vs.map w) >>= fun bs => .ok (b :: bs))
    rw [hF]
    refine Wr.bind (hB v) fun b => ?_
    refine Wr.bind (Wr.forEach hF hB vs) fun bs => ?_
    exact Wr.done' rfl

/-- `w(v) for v in vs if v is not None`. -/
theorem Wr.forEachIf {F : HVal → M (List PVal) → M (List PVal)} {B : HVal → M PVal} {w : HVal → Py Bytes}
    (hF : ∀ v more, F v more = Src.branch (decide (v ≠ .none)) (Src.andThen (B v) fun b => Src.andThen more fun ws => Src.done (b :: ws)) more)
    (hB : ∀ v, Wr H s PVal.bytes (B v) (w v)) :
    ∀ vs : List HVal, Wr H s allBytes (Src.forEach F vs) (allB ((vs.filter (fun v => decide (v ≠ .none))).map w))
  | [] => Wr.done' rfl
  | v :: vs => by
    show Wr H s allBytes (F v (Src.forEach F vs)) _
    rw [hF, List.filter_cons]
    cases hd : decide (v ≠ .none) with
    | false => exact Wr.forEachIf hF hB vs
    | true =>
      show Wr H s allBytes _ (w v >>= fun b => allB ((vs.filter (fun v => decide (v ≠ .none))).map w) >>= fun bs => .ok (b :: bs))
      refine Wr.bind (hB v) fun b => ?_
      refine Wr.bind (Wr.forEachIf hF hB vs) fun bs => ?_
      exact Wr.done' rfl

theorem asObjects_bytes (b : Bytes) (bs : List PVal) : asObjects (.bytes b :: bs) = none := rfl

theorem asBytes_all : ∀ bs : List Bytes, asBytes (allBytes bs) = some bs
  | [] => rfl
  | b :: bs => by
    show (match asBytes (allBytes bs) with | some bs => some (b :: bs) | none => none) = _
    rw [asBytes_all bs]

/-- `b''.join(…)` of the elements. -/
theorem Wr.collect {ψ : α → β} {k : PVal → M β} {g : Py α} {bs : List Bytes} (h0 : bs = [] → Wr H s ψ (k (.seq [])) g)
    (h1 : bs ≠ [] → Wr H s ψ (k (.parts bs)) g) : Wr H s ψ (Src.andThen (Src.collect (allBytes bs)) k) g := by
  cases bs with
  | nil => exact h0 rfl
  | cons b bs =>
    have : Src.collect (allBytes (b :: bs)) = Src.done (.parts (b :: bs)) := by
      unfold Src.collect
      rw [asBytes_all]
      rfl
    rw [this]
    exact h1 (by simp)

/-- `write_int_8_array` — `/repo/src/genieutils/common.py:50-51`. -/
theorem write_int_8_array {n : Nat} (hk : Known H) (hn : 4 ≤ n) {c : Name} {self : HVal} (hi : IsA H self c) (hg : IsGenie c) (v : HVal) :
    Wr H s PVal.bytes (callN n (.h self) n!"GenieClass" n!"write_int_8_array" ⟨[.h v], []⟩) (W.int8Array H (.ok v)) := by
  write_fun
  refine Wr.bind (g := W.iter H (.ok v)) Wr.heapM fun vs => ?_
  peel
  rw [joinB_all]
  refine Wr.bind (Wr.forEach (fun _ _ => rfl) (fun v => Wr.base hi hg (by decide) (write_int_8 hk (by omega) self v)) vs) fun bs => ?_
  refine Wr.collect (fun h => ?_) (fun h => ?_)
  · subst h
    peel
    exact Wr.done' rfl
  · peel
    exact Wr.done' rfl

/-- `write_int_16_array` — `/repo/src/genieutils/common.py:58-59`. -/
theorem write_int_16_array {n : Nat} (hk : Known H) (hn : 4 ≤ n) {c : Name} {self : HVal} (hi : IsA H self c) (hg : IsGenie c) (v : HVal) :
    Wr H s PVal.bytes (callN n (.h self) n!"GenieClass" n!"write_int_16_array" ⟨[.h v], []⟩) (W.int16Array H (.ok v)) := by
  write_fun
  refine Wr.bind (g := W.iter H (.ok v)) Wr.heapM fun vs => ?_
  peel
  rw [joinB_all]
  refine Wr.bind (Wr.forEach (fun _ _ => rfl) (fun v => Wr.base hi hg (by decide) (write_int_16 hk (by omega) self v)) vs) fun bs => ?_
  refine Wr.collect (fun h => ?_) (fun h => ?_)
  · subst h
    peel
    exact Wr.done' rfl
  · peel
    exact Wr.done' rfl

/-- `write_int_32_array` — `/repo/src/genieutils/common.py:64-65`. -/
theorem write_int_32_array {n : Nat} (hk : Known H) (hn : 4 ≤ n) {c : Name} {self : HVal} (hi : IsA H self c) (hg : IsGenie c) (v : HVal) :
    Wr H s PVal.bytes (callN n (.h self) n!"GenieClass" n!"write_int_32_array" ⟨[.h v], []⟩) (W.int32Array H (.ok v)) := by
  write_fun
  refine Wr.bind (g := W.iter H (.ok v)) Wr.heapM fun vs => ?_
  peel
  rw [joinB_all]
  refine Wr.bind (Wr.forEach (fun _ _ => rfl) (fun v => Wr.base hi hg (by decide) (write_int_32 hk (by omega) self v)) vs) fun bs => ?_
  refine Wr.collect (fun h => ?_) (fun h => ?_)
  · subst h
    peel
    exact Wr.done' rfl
  · peel
    exact Wr.done' rfl

/-- `write_float_array` — `/repo/src/genieutils/common.py:70-71`. -/
theorem write_float_array {n : Nat} (hn : 4 ≤ n) {c : Name} {self : HVal} (hi : IsA H self c) (hg : IsGenie c) (v : HVal) :
    Wr H s PVal.bytes (callN n (.h self) n!"GenieClass" n!"write_float_array" ⟨[.h v], []⟩) (W.floatArray H (.ok v)) := by
  write_fun
  refine Wr.bind (g := W.iter H (.ok v)) Wr.heapM fun vs => ?_
  peel
  rw [joinB_all]
  refine Wr.bind (Wr.forEach (fun _ _ => rfl) (fun v => Wr.base hi hg (by decide) (write_float (by omega) self v)) vs) fun bs => ?_
  refine Wr.collect (fun h => ?_) (fun h => ?_)
  · subst h
    peel
    exact Wr.done' rfl
  · peel
    exact Wr.done' rfl

/-- `write_int_32_array` of numbers that are in no list. -/
theorem write_int_32_seq {n : Nat} (hk : Known H) (hn : 4 ≤ n) {c : Name} {self : HVal} (hi : IsA H self c) (hg : IsGenie c) (vs : List HVal) :
    Wr H s PVal.bytes (callN n (.h self) n!"GenieClass" n!"write_int_32_array" ⟨[.seq vs], []⟩)
      (joinB (vs.map fun v => W.int32 H (.ok v))) := by
  write_fun
  rw [joinB_all]
  refine Wr.bind (Wr.forEach (fun _ _ => rfl) (fun v => Wr.base hi hg (by decide) (write_int_32 hk (by omega) self v)) vs) fun bs => ?_
  refine Wr.collect (fun h => ?_) (fun h => ?_)
  · subst h
    peel
    exact Wr.done' rfl
  · peel
    exact Wr.done' rfl

/-- `o.to_bytes(version)`, with at least `r` calls allowed inside each other, does what `rec` does. -/
def Writes (H : Heap) (s : ByteHandler) (r : Nat) (rec : W.Rec) : Prop :=
  ∀ (o : HVal) (ver : Version) (n : Nat), r ≤ n → Wr H s PVal.bytes (objMethod (callN n) o n!"to_bytes" ⟨[.version ver], []⟩) (rec o ver)

/-- `write_class` — `/repo/src/genieutils/common.py:73-77`. -/
theorem write_class {n r : Nat} {rec : W.Rec} (hr : Writes H s r rec) (hn : r + 1 ≤ n) (self o : HVal) (ver : Version) :
    Wr H s PVal.bytes (callN n (.h self) n!"GenieClass" n!"write_class" ⟨[.h o, .version ver], []⟩) (W.cls rec (.ok o) ver) := by
  write_fun
  refine Wr.mapOk (hr o ver _ (by omega)) fun b => ?_
  cases b with
  | nil => peel; exact Wr.done' rfl
  | cons x b => peel; exact Wr.done' rfl

/-- `write_class_array` — `/repo/src/genieutils/common.py:79-83`. -/
theorem write_class_array {n r : Nat} {rec : W.Rec} (hr : Writes H s r rec) (hn : r + 2 ≤ n) {c : Name} {self : HVal} (hi : IsA H self c)
    (hg : IsGenie c) (v : HVal) (ver : Version) :
    Wr H s PVal.bytes (callN n (.h self) n!"GenieClass" n!"write_class_array" ⟨[.h v, .version ver], []⟩) (W.classArray H rec (.ok v) ver) := by
  write_fun
  refine Wr.bind (g := W.iter H (.ok v)) Wr.heapM fun vs => ?_
  peel
  rw [joinB_all]
  refine Wr.bind (Wr.forEachIf (fun _ _ => rfl) (fun v => Wr.base hi hg (by decide) (write_class hr (by omega) self v ver)) vs) fun bs => ?_
  refine Wr.collect (fun h => ?_) (fun h => ?_)
  · subst h
    peel
    exact Wr.done' rfl
  · peel
    cases bs.flatten with
    | nil => peel; exact Wr.done' rfl
    | cons x b => peel; exact Wr.done' rfl

end Genie.Src
