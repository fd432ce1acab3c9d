import Verif.Py.InterpIo
/-!
# Stepping through the interpreter for programs that work on files
-/

namespace Genie.Src

/-- The values that `Path(…)` takes. -/
def IVal.asPath : IVal → Option Path
  | .p v =>
    match v with
    | .text s => some s
    | _ => none
  | .path q => some q
  | _ => none

theorem IM.andThen_ok {f : IM α} {k : α → IM β} {w w' : World} {a : α} (h : f w = (w', .returned a)) : IM.andThen f k w = k a w' := by
  unfold IM.andThen; rw [h]

theorem IM.andThen_raised {f : IM α} {k : α → IM β} {w w' : World} {e : PyErr} (h : f w = (w', .raised e)) : IM.andThen f k w = (w', .raised e) := by
  unfold IM.andThen; rw [h]

theorem IM.andThen_crashed {f : IM α} {k : α → IM β} {w w' : World} (h : f w = (w', .crashed)) : IM.andThen f k w = (w', .crashed) := by
  unfold IM.andThen; rw [h]

theorem inner_ok {s s' : ByteHandler} {f : M α} {w : World} {a : α} {H : Heap} (h : f w.heap s = .ok (a, H, s')) :
    inner s f w = ({ w with heap := H }, .returned (a, s')) := by unfold inner; rw [h]

theorem inner_error {s : ByteHandler} {f : M α} {w : World} {e : PyErr} (h : f w.heap s = .error e) : inner s f w = (w, .raised e) := by
  unfold inner; rw [h]

theorem object_ok {s' : ByteHandler} {f : M α} {w : World} {a : α} {H : Heap} (h : f w.heap (ByteHandler.new []) = .ok (a, H, s')) :
    object f w = ({ w with heap := H }, .returned a) := IM.andThen_ok (inner_ok h)

theorem object_error {f : M α} {w : World} {e : PyErr} (h : f w.heap (ByteHandler.new []) = .error e) : object f w = (w, .raised e) :=
  IM.andThen_raised (inner_error h)

section
variable {P : Platform} {m : Module} {fs : List Fun} {call : ICall} {room : Nat}

theorem assign_ok {x : Name} {e : Ex} {rest : St} {ρ : IEnv} {w w' : World} {v : IVal} (h : evalIo P m fs call room e ρ w = (w', .returned v)) :
    execIo P m fs call room (.assign x e rest) ρ w = execIo P m fs call room rest (setIo x v ρ) w' := IM.andThen_ok h

theorem assign_raised {x : Name} {e : Ex} {rest : St} {ρ : IEnv} {w w' : World} {r : PyErr} (h : evalIo P m fs call room e ρ w = (w', .raised r)) :
    execIo P m fs call room (.assign x e rest) ρ w = (w', .raised r) := IM.andThen_raised h

theorem assign_crashed {x : Name} {e : Ex} {rest : St} {ρ : IEnv} {w w' : World} (h : evalIo P m fs call room e ρ w = (w', .crashed)) :
    execIo P m fs call room (.assign x e rest) ρ w = (w', .crashed) := IM.andThen_crashed h

theorem expr_ok {e : Ex} {rest : St} {ρ : IEnv} {w w' : World} {v : IVal} (h : evalIo P m fs call room e ρ w = (w', .returned v)) :
    execIo P m fs call room (.expr e rest) ρ w = execIo P m fs call room rest ρ w' := IM.andThen_ok h

theorem expr_raised {e : Ex} {rest : St} {ρ : IEnv} {w w' : World} {r : PyErr} (h : evalIo P m fs call room e ρ w = (w', .raised r)) :
    execIo P m fs call room (.expr e rest) ρ w = (w', .raised r) := IM.andThen_raised h

theorem expr_crashed {e : Ex} {rest : St} {ρ : IEnv} {w w' : World} (h : evalIo P m fs call room e ρ w = (w', .crashed)) :
    execIo P m fs call room (.expr e rest) ρ w = (w', .crashed) := IM.andThen_crashed h

theorem ret_ok {e : Ex} {ρ : IEnv} {w w' : World} {v : IVal} (h : evalIo P m fs call room e ρ w = (w', .returned v)) :
    execIo P m fs call room (.ret e) ρ w = (w', .returned (.ret v)) := IM.andThen_ok h

theorem ret_raised {e : Ex} {ρ : IEnv} {w w' : World} {r : PyErr} (h : evalIo P m fs call room e ρ w = (w', .raised r)) :
    execIo P m fs call room (.ret e) ρ w = (w', .raised r) := IM.andThen_raised h

end

section
variable {P : Platform} {n : Nat} {c f : Name} {as : List IVal} {m : Module} {fs : List Fun} {g : Fun} {ρ : IEnv} {w w' : World}

theorem callIo_ret (hf : functionIo c f = some (m, fs, g)) (hb : bindIo g.params as = some ρ) {v : IVal}
    (h : execIo P m fs (callIo P n) n g.body ρ w = (w', .returned (.ret v))) : callIo P (n + 1) c f as w = (w', .returned v) := by
  unfold callIo; rw [hf]; dsimp only; rw [hb]; exact IM.andThen_ok h

theorem callIo_next (hf : functionIo c f = some (m, fs, g)) (hb : bindIo g.params as = some ρ) {ρ' : IEnv}
    (h : execIo P m fs (callIo P n) n g.body ρ w = (w', .returned (.next ρ'))) : callIo P (n + 1) c f as w = (w', .returned (.p (.h .none))) := by
  unfold callIo; rw [hf]; dsimp only; rw [hb]; exact IM.andThen_ok h

theorem callIo_raised (hf : functionIo c f = some (m, fs, g)) (hb : bindIo g.params as = some ρ) {e : PyErr}
    (h : execIo P m fs (callIo P n) n g.body ρ w = (w', .raised e)) : callIo P (n + 1) c f as w = (w', .raised e) := by
  unfold callIo; rw [hf]; dsimp only; rw [hb]; exact IM.andThen_raised h

theorem callIo_crashed (hf : functionIo c f = some (m, fs, g)) (hb : bindIo g.params as = some ρ)
    (h : execIo P m fs (callIo P n) n g.body ρ w = (w', .crashed)) : callIo P (n + 1) c f as w = (w', .crashed) := by
  unfold callIo; rw [hf]; dsimp only; rw [hb]; exact IM.andThen_crashed h

end

/-- `ByteHandler(content)`, from its source. -/
theorem init_source (n : Nat) (d : Bytes) (H : Heap) (s : ByteHandler) :
    callN (n + 1) .handler n!"ByteHandler" n!"__init__" ⟨[.bytes d], []⟩ H s =
      .ok (.h .none, H, { s with content := d, offset := 0, version := .UNDEFINED }) := rfl

/-- `Path(x)`, where `x` is a local variable. -/
theorem path_source {P : Platform} {call : ICall} {room : Nat} {x : Name} {v : IVal} {p : Path} {ρ : IEnv} (hx : find x ρ = some v)
    (hp : v.asPath = some p) (hP : find n!"Path" ρ = none) (w : World) :
    evalIo P module_datfile [] call room (.call (.name n!"Path") (.arg (.name x) .argNil)) ρ w = (w, .returned (.path p)) := by
  refine (IM.andThen_ok (a := .p (.lib n!"Path")) (w' := w) ?_).trans ?_
  · show lookIo _ _ _ _ _ = _
    unfold lookIo
    rw [hP]
    rfl
  · refine (IM.andThen_ok (a := ⟨[v], []⟩) (w' := w) ?_).trans ?_
    · refine (IM.andThen_ok (a := v) (w' := w) ?_).trans rfl
      show lookIo _ _ _ _ _ = _
      unfold lookIo
      rw [hx]
      rfl
    · cases v with
      | p u => cases u <;> first | (cases hp; rfl) | cases hp
      | path q => cases hp; rfl
      | _ => cases hp

/-- `Path(x).read_bytes()`, where `x` is a local variable. -/
theorem read_bytes_source {P : Platform} {call : ICall} {room : Nat} {x : Name} {v : IVal} {p : Path} {ρ : IEnv} (hx : find x ρ = some v)
    (hp : v.asPath = some p) (hP : find n!"Path" ρ = none) (w : World) :
    evalIo P module_datfile [] call room (.call (.attr (.call (.name n!"Path") (.arg (.name x) .argNil)) n!"read_bytes") .argNil) ρ w =
      match w.disk p with
      | some b => (w, .returned (.p (.bytes b)))
      | none => (w, .raised .osError) :=
  (IM.andThen_ok (path_source hx hp hP w)).trans rfl

end Genie.Src
