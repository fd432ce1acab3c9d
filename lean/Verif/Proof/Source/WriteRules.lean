import Verif.Proof.Source.WriteArrays
/-!
# Rules for `to_bytes` of the record classes
-/

namespace Genie.Src

variable {H : Heap} {s : ByteHandler}

/-! ## `struct.pack` -/

/-- `struct.pack` of the arguments that are known (the last ones first) and those that are to come. -/
def packA (fmt : String) (acc : List (List HVal)) : List (Py (List HVal)) → Py Bytes
  | [] => W.pack fmt [.ok acc.reverse.flatten]
  | a :: as => a >>= fun vs => packA fmt (vs :: acc) as

theorem packA_eq (fmt : String) : ∀ (as : List (Py (List HVal))) (acc : List (List HVal)),
    packA fmt acc as = W.args as >>= fun vs => W.pack fmt [.ok (acc.reverse.flatten ++ vs)]
  | [], acc => by
    show W.pack fmt [.ok acc.reverse.flatten] = W.pack fmt [.ok (acc.reverse.flatten ++ [])]
    rw [List.append_nil]
  | .error e :: as, acc => rfl
  | .ok vs :: as, acc => by
    show packA fmt (vs :: acc) as = _
    rw [packA_eq fmt as]
    have : W.args (.ok vs :: as) = W.args as >>= fun ws => .ok (vs ++ ws) := rfl
    rw [this]
    cases W.args as with
    | error e => rfl
    | ok ws =>
      show W.pack fmt [.ok ((vs :: acc).reverse.flatten ++ ws)] = W.pack fmt [.ok (acc.reverse.flatten ++ (vs ++ ws))]
      simp

theorem pack_eq (fmt : String) (as : List (Py (List HVal))) : W.pack fmt as = packA fmt [] as := by
  rw [packA_eq]
  have e : ∀ vs, W.pack fmt [.ok (([] : List (List HVal)).reverse.flatten ++ vs)] = W.pack fmt [.ok vs] := fun _ => rfl
  simp only [e]
  have e2 : ∀ vs : List HVal, W.args [.ok vs] = .ok vs := by
    intro vs
    show Except.ok (vs ++ []) = _
    rw [List.append_nil]
  unfold W.pack
  cases W.args as with
  | error e => rfl
  | ok vs =>
    simp only [e2]
    rfl

/-- Begin with the arguments of `struct.pack`. -/
theorem Wr.pack {φ : Bytes → β} {f : M β} {fmt : String} {as : List (Py (List HVal))} (h : Wr H s φ f (packA fmt [] as >>= .ok)) :
    Wr H s φ f (W.pack fmt as) := by
  have e : (packA fmt [] as >>= .ok) = packA fmt [] as := by cases packA fmt [] as <;> rfl
  rw [pack_eq, ← e]; exact h

/-- Begin with the arguments of `struct.pack` in a concatenation. -/
theorem Wr.packElem {φ : Bytes → β} {f : M β} {fmt : String} {as : List (Py (List HVal))} {acc : List Bytes} {ws : List (Py Bytes)}
    (h : Wr H s φ f (packA fmt [] as >>= fun b => joinA (b :: acc) ws)) : Wr H s φ f (joinA acc (W.pack fmt as :: ws)) := by
  rw [pack_eq]; exact h

/-- An argument. -/
theorem Wr.pArg {ψ : ε → δ} {f : M PVal} {o : Py HVal} {k : PVal → M δ} {fmt : String} {acc : List (List HVal)} {as : List (Py (List HVal))}
    {K : Bytes → Py ε} (ho : Wr H s PVal.h f o) (hk : ∀ v, Wr H s ψ (k (.h v)) (packA fmt ([v] :: acc) as >>= K)) :
    Wr H s ψ (Src.andThen f k) (packA fmt acc (W.arg o :: as) >>= K) :=
  Wr.argBind (w := fun o => packA fmt acc (W.arg o :: as)) (fun o => by cases o <;> rfl) ho hk

/-- `*o`. -/
theorem Wr.pStar {ψ : ε → δ} {f : M PVal} {o : Py HVal} {k : PVal → M δ} {fmt : String} {acc : List (List HVal)} {as : List (Py (List HVal))}
    {K : Bytes → Py ε} (ho : Wr H s PVal.h f o) (hk : ∀ v, Wr H s ψ (k (.h v)) (packA fmt acc (W.iter H (.ok v) :: as) >>= K)) :
    Wr H s ψ (Src.andThen f k) (packA fmt acc (W.iter H o :: as) >>= K) :=
  Wr.argBind (w := fun o => packA fmt acc (W.iter H o :: as)) (fun o => by cases o <;> rfl) ho hk

/-- The elements of `*o`. -/
theorem Wr.pIter {ψ : ε → δ} {v : HVal} {k : List HVal → M δ} {fmt : String} {acc : List (List HVal)} {as : List (Py (List HVal))}
    {K : Bytes → Py ε} (hk : ∀ vs, Wr H s ψ (k vs) (packA fmt (vs :: acc) as >>= K)) :
    Wr H s ψ (Src.andThen (Src.heapM fun H => W.iter H (.ok v)) k) (packA fmt acc (W.iter H (.ok v) :: as) >>= K) :=
  Wr.argBind (w := fun l => packA fmt acc (l :: as)) (fun o => by cases o <;> rfl) Wr.heapM hk

/-- `self.a[0].b`: the attribute `a`. -/
theorem Wr.pItemAttr {ψ : ε → δ} {call : Call} {v : HVal} {a : Name} {n m : PyStr} {i : Nat} {k : PVal → M δ} {fmt : String}
    {acc : List (List HVal)} {as : List (Py (List HVal))} {K : Bytes → Py ε} (ha : Name.str a = n) (h : noProperty a classes = true)
    (hk : ∀ v, Wr H s ψ (k (.h v)) (packA fmt acc (W.arg (W.attrOf H (W.item H (.ok v) i) m) :: as) >>= K)) :
    Wr H s ψ (Src.andThen (Src.objAttr call v a) k) (packA fmt acc (W.arg (W.attrOf H (W.item H (W.attr H v n) i) m) :: as) >>= K) :=
  Wr.argBind (w := fun o => packA fmt acc (W.arg (W.attrOf H (W.item H o i) m) :: as)) (fun o => by cases o <;> rfl) (Wr.attr ha h) hk

/-- `self.a[0].b`: the item. -/
theorem Wr.pItem {ψ : ε → δ} {v : HVal} {m : PyStr} {i : Nat} {k : PVal → M δ} {fmt : String}
    {acc : List (List HVal)} {as : List (Py (List HVal))} {K : Bytes → Py ε}
    (hk : ∀ v, Wr H s ψ (k (.h v)) (packA fmt acc (W.arg (W.attr H v m) :: as) >>= K)) :
    Wr H s ψ (Src.andThen (Src.andThen (Src.heapM fun H => W.item H (.ok v) i) fun w => Src.done (.h w)) k)
      (packA fmt acc (W.arg (W.attrOf H (W.item H (.ok v) i) m) :: as) >>= K) :=
  Wr.argBind (w := fun o => packA fmt acc (W.arg (W.attrOf H o m) :: as)) (fun o => by cases o <;> rfl) (Wr.heapM.tail PVal.h) hk

theorem asObjects_map : ∀ vs : List HVal, asObjects (vs.map PVal.h) = some vs
  | [] => rfl
  | v :: vs => by
    show (match asObjects (vs.map PVal.h) with | some ws => some (v :: ws) | none => none) = _
    rw [asObjects_map vs]

/-- `struct.pack` itself. -/
theorem Wr.packEnd {ψ : ε → δ} {l : List PVal} {k : PVal → M δ} {fmt : String} {acc : List (List HVal)} {K : Bytes → Py ε} (hf : fmt ≠ "f")
    (hl : l = acc.reverse.flatten.map PVal.h) (hk : ∀ b, Wr H s ψ (k (.bytes b)) (K b)) :
    Wr H s ψ (Src.andThen (Src.structPackM fmt l) k) (packA fmt acc [] >>= K) := by
  have e : Src.structPackM fmt l = Src.andThen (Src.pyM (W.pack fmt [.ok acc.reverse.flatten])) fun b => Src.done (.bytes b) := by
    unfold Src.structPackM
    rw [hl, asObjects_map]
    dsimp only
    split
    · exact absurd rfl hf
    · rfl
  rw [e]
  exact Wr.bind ((Wr.py (W.pack fmt [.ok acc.reverse.flatten])).tail PVal.bytes) hk

/-- The arguments are those that were evaluated. -/
macro "pack_args" : tactic => `(tactic|
  simp only [List.reverse_cons, List.reverse_nil, List.nil_append, List.cons_append, List.flatten_cons, List.flatten_nil, List.map_append,
    List.map_cons, List.map_nil, List.append_nil, List.append_assoc])

/-- `a + b` of `bytes`. -/
theorem Wr.add {ψ : α → β} {a b : Bytes} {k : PVal → M β} {g : Py α} (h : Wr H s ψ (k (.bytes (a ++ b))) g) :
    Wr H s ψ (Src.andThen (Src.binV .add (.bytes a) (.bytes b)) k) g := h

/-! ## decisions -/

/-- `v >= w` — `/repo/src/genieutils/versions.py:26-27`. -/
theorem Wr.version_ge {n : Nat} (hn : 1 ≤ n) (v w : Version) :
    Wr H s PVal.bool (callN n (.version v) n!"Version" n!"__ge__" ⟨[.version w], []⟩) (.ok (v.ge w)) := by
  write_fun
  exact Wr.done _

/-- `if version >= w: …`. -/
theorem Wr.ifVersion {ψ : α → β} {n : Nat} (hn : 1 ≤ n) {v w : Version} {k : PVal → M β} {g g' : Py α}
    (ha : v.ge w = true → Wr H s ψ (k (.bool true)) g) (hb : v.ge w = false → Wr H s ψ (k (.bool false)) g') :
    Wr H s ψ (Src.andThen (callN n (.version v) n!"Version" n!"__ge__" ⟨[.version w], []⟩) k) (if v.ge w then g else g') := by
  refine Wr.pureBind (Wr.version_ge hn v w) ?_
  cases h : v.ge w with
  | true => rw [if_pos rfl]; exact ha h
  | false => rw [if_neg (by decide)]; exact hb h

/-- `if version >= w: …` in a concatenation. -/
theorem Wr.ifVersionElem {ψ : Bytes → β} {n : Nat} (hn : 1 ≤ n) {v w : Version} {k : PVal → M β} {g g' : Py Bytes} {acc : List Bytes}
    {ws : List (Py Bytes)} (ha : v.ge w = true → Wr H s ψ (k (.bool true)) (joinA acc (g :: ws)))
    (hb : v.ge w = false → Wr H s ψ (k (.bool false)) (joinA acc (g' :: ws))) :
    Wr H s ψ (Src.andThen (callN n (.version v) n!"Version" n!"__ge__" ⟨[.version w], []⟩) k) (joinA acc ((if v.ge w then g else g') :: ws)) := by
  have e : joinA acc ((if v.ge w then g else g') :: ws) = if v.ge w then joinA acc (g :: ws) else joinA acc (g' :: ws) := by
    split <;> rfl
  rw [e]
  exact Wr.ifVersion hn ha hb

/-- A decision whose outcome is known. -/
theorem Wr.branchT {ψ : α → β} {c : Bool} {a b : M β} {g : Py α} (hc : c = true) (ha : Wr H s ψ a g) : Wr H s ψ (Src.branch c a b) g := by
  subst hc; exact ha

theorem Wr.branchF {ψ : α → β} {c : Bool} {a b : M β} {g : Py α} (hc : c = false) (hb : Wr H s ψ b g) : Wr H s ψ (Src.branch c a b) g := by
  subst hc; exact hb

/-- A decision whose outcome is known, with what follows. -/
theorem Wr.thenT {ψ : α → β} {c : Bool} {a b : M γ} {k : γ → M β} {g : Py α} (hc : c = true) (ha : Wr H s ψ (Src.andThen a k) g) :
    Wr H s ψ (Src.andThen (Src.branch c a b) k) g := by
  subst hc; exact ha

theorem Wr.thenF {ψ : α → β} {c : Bool} {a b : M γ} {k : γ → M β} {g : Py α} (hc : c = false) (hb : Wr H s ψ (Src.andThen b k) g) :
    Wr H s ψ (Src.andThen (Src.branch c a b) k) g := by
  subst hc; exact hb

/-- `bool(v)`. -/
theorem Wr.truth (v : HVal) : Wr H s id (Src.truth (.h v)) (.ok (W.truthy H v)) := by
  intro _
  cases v <;> rfl

/-- The bytes are those of the elements. -/
macro "join_end" : tactic => `(tactic| first | rfl | simp)

/-! ## elements of `b''.join([…])` -/

section
variable {ψ : Bytes → δ} {k : PVal → M δ} {acc : List Bytes} {ws : List (Py Bytes)}

theorem strict_nat {w : Py HVal → Py Bytes} (hw : ∀ o, w o = o >>= fun a => w (.ok a)) (n : Py Nat) :
    w (W.nat n) = n >>= fun a => w (W.nat (.ok a)) := by
  cases n with
  | error e => rw [hw]; rfl
  | ok a => rfl

theorem strict_len {w : Py HVal → Py Bytes} (hw : ∀ o, w o = o >>= fun a => w (.ok a)) (o : Py HVal) :
    w (W.nat (W.len H o)) = o >>= fun a => w (W.nat (W.len H (.ok a))) := by
  cases o with
  | error e => rw [hw]; rfl
  | ok a => rfl

/-- `w(self.a)`: the attribute. -/
theorem Wr.eAttr {w : Py HVal → Py Bytes} (hw : ∀ o, w o = o >>= fun a => w (.ok a)) {call : Call} {v : HVal} {a : Name} {n : PyStr}
    (ha : Name.str a = n) (h : noProperty a classes = true) (hk : ∀ v, Wr H s ψ (k (.h v)) (joinA acc (w (.ok v) :: ws))) :
    Wr H s ψ (Src.andThen (Src.objAttr call v a) k) (joinA acc (w (W.attr H v n) :: ws)) :=
  Wr.arg hw (Wr.attr ha h) hk

/-- `w(len(self.a))`: the attribute. -/
theorem Wr.eLenAttr {w : Py HVal → Py Bytes} (hw : ∀ o, w o = o >>= fun a => w (.ok a)) {call : Call} {v : HVal} {a : Name} {n : PyStr}
    (ha : Name.str a = n) (h : noProperty a classes = true) (hk : ∀ v, Wr H s ψ (k (.h v)) (joinA acc (w (W.nat (W.len H (.ok v))) :: ws))) :
    Wr H s ψ (Src.andThen (Src.objAttr call v a) k) (joinA acc (w (W.nat (W.len H (W.attr H v n))) :: ws)) :=
  Wr.arg (w := fun o => w (W.nat (W.len H o))) (strict_len hw) (Wr.attr ha h) hk

/-- `w(len(self.a))`: the length. -/
theorem Wr.eLen {w : Py HVal → Py Bytes} (hw : ∀ o, w o = o >>= fun a => w (.ok a)) {v : HVal}
    (hk : ∀ n : Nat, Wr H s ψ (k (.h (.int n))) (joinA acc (w (.ok (.int n)) :: ws))) :
    Wr H s ψ (Src.andThen (Src.andThen (Src.heapM fun H => W.len H (.ok v)) fun n => Src.done (.h (.int n))) k) (joinA acc (w (W.nat (W.len H (.ok v))) :: ws)) :=
  Wr.arg (w := fun n => w (W.nat n)) (strict_nat hw) (Wr.heapM.tail fun n : Nat => PVal.h (.int n)) hk

/-- An element that was computed before. -/
theorem Wr.known {f : M δ} {b : Bytes} (h : Wr H s ψ f (joinA (b :: acc) ws)) : Wr H s ψ f (joinA acc (.ok b :: ws)) := h

theorem strict_int8 (o : Py HVal) : W.int8 H o = o >>= fun a => W.int8 H (.ok a) := by cases o <;> rfl
theorem strict_int16 (o : Py HVal) : W.int16 H o = o >>= fun a => W.int16 H (.ok a) := by cases o <;> rfl
theorem strict_int16s (sg : Bool) (o : Py HVal) : W.int16 H o sg = o >>= fun a => W.int16 H (.ok a) sg := by cases o <;> rfl
theorem strict_int16If (c : Bool) (o : Py HVal) : W.int16If H o c = o >>= fun a => W.int16If H (.ok a) c := by cases o <;> rfl
theorem strict_int32 (o : Py HVal) : W.int32 H o = o >>= fun a => W.int32 H (.ok a) := by cases o <;> rfl
theorem strict_int32s (sg : Bool) (o : Py HVal) : W.int32 H o sg = o >>= fun a => W.int32 H (.ok a) sg := by cases o <;> rfl
theorem strict_float (o : Py HVal) : W.float o = o >>= fun a => W.float (.ok a) := by cases o <;> rfl
theorem strict_debugString (o : Py HVal) : W.debugString o = o >>= fun a => W.debugString (.ok a) := by cases o <;> rfl
theorem strict_string (n : Nat) (o : Py HVal) : W.string n o = o >>= fun a => W.string n (.ok a) := by cases o <;> rfl
theorem strict_int8Array (o : Py HVal) : W.int8Array H o = o >>= fun a => W.int8Array H (.ok a) := by cases o <;> rfl
theorem strict_int16Array (o : Py HVal) : W.int16Array H o = o >>= fun a => W.int16Array H (.ok a) := by cases o <;> rfl
theorem strict_int32Array (o : Py HVal) : W.int32Array H o = o >>= fun a => W.int32Array H (.ok a) := by cases o <;> rfl
theorem strict_floatArray (o : Py HVal) : W.floatArray H o = o >>= fun a => W.floatArray H (.ok a) := by cases o <;> rfl
theorem strict_cls (rec : W.Rec) (ver : Version) (o : Py HVal) : W.cls rec o ver = o >>= fun a => W.cls rec (.ok a) ver := by cases o <;> rfl
theorem strict_classArray (rec : W.Rec) (ver : Version) (o : Py HVal) :
    W.classArray H rec o ver = o >>= fun a => W.classArray H rec (.ok a) ver := by cases o <;> rfl

/-- `write_int_16(len(self.a), if_=c)`: the attribute. -/
theorem Wr.eIfLenAttr {c : Bool} {call : Call} {v : HVal} {a : Name} {n : PyStr} (ha : Name.str a = n) (h : noProperty a classes = true)
    (hk : ∀ v, Wr H s ψ (k (.h v)) (joinA acc (W.int16If H (W.nat (W.len H (.ok v))) c :: ws))) :
    Wr H s ψ (Src.andThen (Src.objAttr call v a) k) (joinA acc (W.int16If H (W.nat (W.len H (W.attr H v n))) c :: ws)) :=
  Wr.eLenAttr (w := fun o => W.int16If H o c) (strict_int16If c) ha h hk

/-- `write_int_16(len(self.a), if_=c)`: the length. -/
theorem Wr.eIfLen {c : Bool} {v : HVal} (hk : ∀ n : Nat, Wr H s ψ (k (.h (.int n))) (joinA acc (W.int16If H (.ok (.int n)) c :: ws))) :
    Wr H s ψ (Src.andThen (Src.andThen (Src.heapM fun H => W.len H (.ok v)) fun n => Src.done (.h (.int n))) k)
      (joinA acc (W.int16If H (W.nat (W.len H (.ok v))) c :: ws)) :=
  Wr.eLen (w := fun o => W.int16If H o c) (strict_int16If c) hk

end

/-- `if_=(version >= Version.VER_78)` as the last argument. -/
theorem Wr.kwVersion78 {ψ : α → β} {call : Call} {x : Name} {self : PVal} {ver : Version} {K : List PVal → List (Name × PVal) → M β} {g : Py α}
    (h : Wr H s ψ (Src.andThen (call (.version ver) n!"Version" n!"__ge__" ⟨[.version .VER_78], []⟩) fun b => K [] [(x, b)]) g) :
    Wr H s ψ (evalArgs call n!"unit"
      (.kw x (.compare (.name n!"version") (.cmp .ge (.attr (.name n!"Version") n!"VER_78") .cmpNil)) .argNil)
      [(n!"self", self), (n!"version", .version ver)] K) g := h

/-- What the source of `c.to_bytes` has to do. -/
def WritesAs (c : Name) (write : Heap → W.Rec → HVal → Version → Py Bytes) : Prop :=
  ∀ {H : Heap} {s : ByteHandler} {r n : Nat} {rec : W.Rec} {self : HVal} (ver : Version), Known H → Writes H s r rec → 2 ≤ r → r + 4 ≤ n →
    IsA H self c → Wr H s PVal.bytes (callN n (.h self) c n!"to_bytes" ⟨[.version ver], []⟩) (write H rec self ver)

/-- What the source of another function that writes an instance has to do. -/
def WritesAs' (c f : Name) (write : Heap → W.Rec → HVal → Version → Py Bytes) : Prop :=
  ∀ {H : Heap} {s : ByteHandler} {r n : Nat} {rec : W.Rec} {self : HVal} (ver : Version), Known H → Writes H s r rec → 2 ≤ r → r + 3 ≤ n →
    IsA H self c → Wr H s PVal.bytes (callN n (.h self) c f ⟨[.version ver], []⟩) (write H rec self ver)

end Genie.Src
