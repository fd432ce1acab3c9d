import Verif.Py.Interp
/-!
# What the source code means with `python -O`

With `-O`, Python compiles `assert` statements to nothing: their conditions are not evaluated.  Everything else is as in `Verif/Py/Interp.lean`.
-/

namespace Genie.Src

/-- A block without its `assert` statements (if `o`). -/
def St.opt (o : Bool) : St → St
  | .done => .done
  | .assign x e rest => .assign x e (rest.opt o)
  | .aug x op e rest => .aug x op e (rest.opt o)
  | .unpack xs e rest => .unpack xs e (rest.opt o)
  | .setAttr t a e rest => .setAttr t a e (rest.opt o)
  | .expr e rest => .expr e (rest.opt o)
  | .assert c rest =>
    match o with
    | true => rest.opt o
    | false => .assert c (rest.opt o)
  | .ite c a b rest => .ite c (a.opt o) (b.opt o) (rest.opt o)
  | .forIn x it body rest => .forIn x it (body.opt o) (rest.opt o)
  | .ret e => .ret e
  | .raise e => .raise e

/-- Run the function `f` of the class `c`, without `assert` statements if `o`. -/
def runO (o : Bool) (call : Call) : Call := fun recv c f as =>
  match method c f with
  | none => fail .attributeError
  | some (m, g) =>
    match knownKw g.params as.kw with
    | false => fail .typeError
    | true =>
      match bindArgs m g.params (withSelf g recv c as.pos) as.kw with
      | none => fail .typeError
      | some ρ => andThen (exec call m (g.body.opt o) ρ) result

/-- Call the function `f` of the class `c` in a Python that was started with `-O`, with at most `n` calls inside each other. -/
def callO : Nat → Call
  | 0, _, _, _, _ => fail .recursionError
  | n + 1, recv, c, f, as => runO true (callO n) recv c f as

end Genie.Src
