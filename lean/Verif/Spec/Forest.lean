import Verif.Model.Scripts
import Verif.Model.HeapScripts
import Verif.Spec.Copies
import Verif.Spec.RecordObjects
/-!
# What a script means on values

The objects a script works with, as values: a number of trees (the file it loaded, objects it created, copies, parts it has taken out), and
for every object the script has a name for, the spot where it is: in which tree, at which place.  An operation replaces a part of one tree.
A part that is taken out becomes a tree of its own; a tree of its own may be put into another tree, and is then a part of that.

What has no meaning here (`none`) is exactly: to put an object at a second place while it is a part of something already (the object would
be shared, see C50; strings, numbers and tuples of such may be put anywhere), to put an object into itself, and to ask whether two tuples are
the same object.  (And to name an attribute twice in a call, which is a `SyntaxError`.)
-/

namespace Genie

/-- The position an index of Python means in a list of length `n`: counted from the front, or if negative from the end. -/
def position (n : Nat) : Int → Option Nat
  | .ofNat k => if k < n then some k else none
  | .negSucc k => if k + 1 ≤ n then some (n - (k + 1)) else none

/-- The position a bound of a slice means. -/
def bound (n : Nat) : Int → Nat
  | .ofNat k => min k n
  | .negSucc k => n - (k + 1)

mutual
/-- Numbers, strings, `None`, and tuples of such. -/
def ObjTree.immutable : ObjTree → Bool
  | .none => true
  | .int _ => true
  | .float _ => true
  | .str _ => true
  | .tuple ts => immutableItems ts
  | .list _ => false
  | .obj _ _ => false
/-- The elements. -/
def ObjTree.immutableItems : List ObjTree → Bool
  | [] => true
  | t :: ts => t.immutable && immutableItems ts
end

/-- Where an object is: the number of the tree, and the place in it. -/
abbrev Spot := Nat × ObjPath

/-- Some trees, and the spots of the objects that have a name. -/
structure Forest where
  trees : List ObjTree
  spots : List Spot
deriving Inhabited

namespace Forest

/-- What is at a spot. -/
def at' (F : Forest) (p : Spot) : ObjTree :=
  match F.trees[p.1]? with
  | some t => (t.get p.2).getD .none
  | none => .none

/-- The value of the object number `h`; `None` if there is none. -/
def value (F : Forest) (h : Nat) : ObjTree :=
  match F.spots[h]? with
  | some p => F.at' p
  | none => .none

/-- Let the script see what is at a spot. -/
def hand (F : Forest) (p : Spot) : Seen × Forest :=
  match F.at' p with
  | .none => (.none, F)
  | .int i => (.int i, F)
  | .float x => (.float x, F)
  | .str s => (.str s, F)
  | .list _ => (.object F.spots.length .list, { F with spots := F.spots ++ [p] })
  | .tuple _ => (.object F.spots.length .tuple, { F with spots := F.spots ++ [p] })
  | .obj cls _ => (.object F.spots.length (.instance cls), { F with spots := F.spots ++ [p] })

/-- What is handed to an operation: its value, and if it is an object that can change, the number of the tree it is; it must be a tree of
its own. -/
def arg (F : Forest) : Arg → Option (ObjTree × Option Nat)
  | .none => some (.none, none)
  | .int i => some (.int i, none)
  | .float x => some (.float x, none)
  | .str s => some (.str s, none)
  | .object h =>
    if (F.value h).immutable then some (F.value h, none)
    else match F.spots[h]? with
      | some (r, []) => some (F.value h, some r)
      | _ => none

/-- What is handed to an operation on a part of the tree `home` (if it is one): no tree twice, and not `home` itself. -/
def args (F : Forest) (home : Option Nat) (vs : List Arg) : Option (List (ObjTree × Option Nat)) :=
  match vs.mapM F.arg with
  | none => none
  | some us => if (us.filterMap (·.2)).Nodup ∧ (∀ r, home = some r → r ∉ us.filterMap (·.2)) then some us else none

/-- The trees without those that have become parts of others. -/
def without (trees : List ObjTree) (gone : List Nat) : List ObjTree := gone.foldl (fun trees r => trees.set r .none) trees

/-- The rest of a place that is inside the place `p`. -/
def inside (p q : ObjPath) : Option (PathStep × ObjPath) :=
  if p <+: q then
    match q.drop p.length with
    | st :: rest => some (st, rest)
    | [] => none
  else none

/-- Replace the object at the spot `p`: it becomes `node`; the trees of `us` become the parts of it that `entry` names; `out` are the parts
that are taken out; `moved` says where the parts of the old object are now. -/
def change (F : Forest) (p : Spot) (node : ObjTree) (us : List (ObjTree × Option Nat)) (entry : Nat → PathStep) (out : List ObjTree)
    (moved : PathStep → Spot) : Forest :=
  { trees := without (F.trees.modify p.1 fun t => t.put p.2 node) (us.filterMap (·.2)) ++ out
    spots := F.spots.map fun q =>
      if q.1 = p.1 then
        match inside p.2 q.2 with
        | some (st, rest) => ((moved st).1, (moved st).2 ++ rest)
        | none => q
      else
        match us.findIdx? (fun u => u.2 == some q.1) with
        | some m => (p.1, p.2 ++ entry m :: q.2)
        | none => q }

/-- The elements `i`, …, `k - 1` of the list `ts` at the spot `p` are taken out and `us` are put there. -/
def splice (F : Forest) (p : Spot) (ts : List ObjTree) (i k : Nat) (us : List (ObjTree × Option Nat)) : Forest :=
  F.change p (.list (ts.take i ++ us.map (·.1) ++ ts.drop k)) us (fun m => .item (i + m)) ((ts.take k).drop i) fun st =>
    match st with
    | .item j =>
      if j < i then (p.1, p.2 ++ [.item j])
      else if j < k then (F.trees.length + (j - i), [])
      else (p.1, p.2 ++ [.item (j - k + i + us.length)])
    | st => (p.1, p.2 ++ [st])

/-- The attribute `name` of the instance at the spot `p` is taken out, if it is there, and `u` is put there. -/
def assign (F : Forest) (p : Spot) (cls : PyStr) (ts : List (PyStr × ObjTree)) (name : PyStr) (u : ObjTree × Option Nat) : Forest :=
  match ObjTree.attrOf name ts with
  | some old => F.change p (.obj cls (ObjTree.setAttrOf name u.1 ts)) [u] (fun _ => .attr name) [old] fun st =>
      if st = .attr name then (F.trees.length, []) else (p.1, p.2 ++ [st])
  | none => F.change p (.obj cls (ts ++ [(name, u.1)])) [u] (fun _ => .attr name) [] fun st => (p.1, p.2 ++ [st])

/-- A new object: the trees of `us` become parts of it. -/
def create (F : Forest) (node : ObjTree) (us : List (ObjTree × Option Nat)) (entry : Nat → PathStep) : Seen × Forest :=
  hand
    { trees := without F.trees (us.filterMap (·.2)) ++ [node]
      spots := F.spots.map fun q =>
        match us.findIdx? (fun u => u.2 == some q.1) with
        | some m => (F.trees.length, entry m :: q.2)
        | none => q }
    (F.trees.length, [])

/-- A statement that takes out some elements of a list and puts others there; `cut` says which, or what exception it raises. -/
def listStatement (F : Forest) (o : Nat) (vs : List Arg) (wrong : PyErr) (cut : Nat → Py (Nat × Nat)) : Option (Py Seen × Forest) :=
  match F.spots[o]?, F.value o with
  | some p, .list ts =>
    match cut ts.length with
    | .error e => some (.error e, F)
    | .ok (i, k) => (F.args (some p.1) vs).map fun us => (.ok .none, F.splice p ts i k us)
  | _, _ => some (.error wrong, F)

/-- Values that are put at a second place: they must not be able to change. -/
def again (ts : List ObjTree) : Option (List (ObjTree × Option Nat)) :=
  if ∀ t ∈ ts, t.immutable = true then some (ts.map fun t => (t, none)) else none

end Forest

/-- The elements `ts[i:j]`. -/
def sliceOf (ts : List α) (i j : Int) : List α := (ts.take (bound ts.length j)).drop (bound ts.length i)

/-- The position of an element, or `IndexError`. -/
def element (i : Int) (n : Nat) : Py (Nat × Nat) :=
  match position n i with
  | some j => .ok (j, j + 1)
  | none => .error .indexError

/-- What an operation means: the answer or the exception, and the trees afterwards. -/
def Op.onForest (depth : Nat) (F : Forest) : Op → Option (Py Seen × Forest)
  | .getAttr o name =>
    match F.spots[o]?, (F.value o).step (.attr name) with
    | some p, .ok _ => let r := F.hand (p.1, p.2 ++ [.attr name]); some (.ok r.1, r.2)
    | _, _ => some (.error .attributeError, F)
  | .getItem o i =>
    match F.spots[o]?, F.value o with
    | some p, .list ts | some p, .tuple ts =>
      match position ts.length i with
      | some j => let r := F.hand (p.1, p.2 ++ [.item j]); some (.ok r.1, r.2)
      | none => some (.error .indexError, F)
    | _, _ => some (.error .typeError, F)
  | .len o =>
    match F.value o with
    | .list ts | .tuple ts => some (.ok (.int ts.length), F)
    | _ => some (.error .typeError, F)
  | .same o o' =>
    if F.spots[o]? = F.spots[o']? then some (.ok (.int 1), F)
    else
      match F.value o, F.value o' with
      | .tuple _, .tuple _ => none
      | _, _ => some (.ok (.int 0), F)
  | .setAttr o name v =>
    match F.spots[o]?, F.value o with
    | some p, .obj cls ts =>
      if (ObjTree.attrOf name ts).isNone && HReader.ofClass name then some (.error .attributeError, F)
      else
        match F.args (some p.1) [v] with
        | some [u] => some (.ok .none, F.assign p cls ts name u)
        | _ => none
    | _, _ => some (.error .attributeError, F)
  | .setItem o i v => F.listStatement o [v] .typeError (element i)
  | .append o v => F.listStatement o [v] .attributeError fun n => .ok (n, n)
  | .insert o i v => F.listStatement o [v] .attributeError fun n => .ok (bound n i, bound n i)
  | .pop o i =>
    match F.listStatement o [] .attributeError (element i) with
    | some (.ok _, F') => let r := F'.hand (F.trees.length, []); some (.ok r.1, r.2)
    | x => x
  | .delItem o i => F.listStatement o [] .typeError (element i)
  | .delSlice o i j => F.listStatement o [] .typeError fun n => .ok (bound n i, max (bound n i) (bound n j))
  | .newList vs => (F.args none vs).map fun us => let r := F.create (.list (us.map (·.1))) us .item; (.ok r.1, r.2)
  | .newTuple vs => (F.args none vs).map fun us => let r := F.create (.tuple (us.map (·.1))) us .item; (.ok r.1, r.2)
  | .new cls vs =>
    if (vs.map (·.1)).Nodup then
      (F.args none (vs.map (·.2))).map fun us =>
        let r := F.create (.obj cls ((vs.map (·.1)).zip (us.map (·.1)))) us fun m => .attr ((vs.map (·.1)).getD m []); (.ok r.1, r.2)
    else none
  | .deepcopy o =>
    if (F.value o).height ≤ depth then
      let r := Forest.hand { F with trees := F.trees ++ [F.value o] } (F.trees.length, [])
      some (.ok r.1, r.2)
    else some (.error .recursionError, F)
  | .slice o i j =>
    match F.value o with
    | .list ts => (Forest.again (sliceOf ts i j)).map fun us => let r := F.create (.list (us.map (·.1))) us .item; (.ok r.1, r.2)
    | .tuple ts => (Forest.again (sliceOf ts i j)).map fun us => let r := F.create (.tuple (us.map (·.1))) us .item; (.ok r.1, r.2)
    | _ => some (.error .typeError, F)
  | .extend o o' =>
    match F.spots[o]?, F.value o with
    | some p, .list ts =>
      match F.value o' with
      | .list more | .tuple more => (Forest.again more).map fun us => (.ok .none, F.splice p ts ts.length ts.length us)
      | _ => some (.error .typeError, F)
    | _, _ => some (.error .attributeError, F)
  | .copy o =>
    match F.spots[o]?, F.value o with
    | some _, .list ts => (Forest.again ts).map fun us => let r := F.create (.list (us.map (·.1))) us .item; (.ok r.1, r.2)
    | some _, .obj cls ts =>
      (Forest.again (ts.map (·.2))).map fun us => let r := F.create (.obj cls ((ts.map (·.1)).zip (us.map (·.1)))) us .item; (.ok r.1, r.2)
    | some p, .tuple _ => let r := F.hand p; some (.ok r.1, r.2)
    | _, _ => some (.ok .none, F)

/-- What an operation puts somewhere. -/
def Op.puts : Op → List Arg
  | .setAttr _ _ v | .setItem _ _ v | .append _ v | .insert _ _ v => [v]
  | .newList vs | .newTuple vs => vs
  | .new _ vs => vs.map (·.2)
  | _ => []

/-- The object an operation puts it into. -/
def Op.into : Op → Option Nat
  | .setAttr o _ _ | .setItem o _ _ | .append o _ | .insert o _ _ => some o
  | _ => none

/-- What is at a second place after an operation. -/
def Op.spreads (F : Forest) : Op → List ObjTree
  | .slice o i j =>
    match F.value o with
    | .list ts | .tuple ts => sliceOf ts i j
    | _ => []
  | .extend _ o' =>
    match F.value o' with
    | .list ts | .tuple ts => ts
    | _ => []
  | .copy o =>
    match F.value o with
    | .list ts => ts
    | .obj _ ts => ts.map (·.2)
    | _ => []
  | _ => []

/-- An object that can change is put at a second place: it is a part of something (its spot is not a whole tree), or it is put into (a part
of) itself, or it is handed over twice, or it is a part that an object and its shallow copy (or a list and a slice of it, or two lists) have both. -/
def Op.Shares (F : Forest) (op : Op) : Prop :=
  (∃ h r p, Arg.object h ∈ op.puts ∧ (F.value h).immutable = false ∧ F.spots[h]? = some (r, p) ∧
    (p ≠ [] ∨ ∃ o q, op.into = some o ∧ F.spots[o]? = some (r, q))) ∨
  (∃ (i j h k r : Nat), i < j ∧ op.puts[i]? = some (Arg.object h) ∧ op.puts[j]? = some (Arg.object k) ∧ (F.value h).immutable = false ∧
    F.spots[h]? = some (r, []) ∧ F.spots[k]? = some (r, [])) ∨
  (∃ t ∈ op.spreads F, t.immutable = false)

/-- What an object with this value is written as: the bytes, or the exception, for an object with this value that is all there is in memory. -/
def ObjTree.written (depth : Nat) (t : ObjTree) : Py Bytes :=
  match HReader.new t [] (ByteHandler.new []) with
  | .ok (o, H, _) => W.toBytes H depth o .UNDEFINED
  | .error e => .error e

/-- What an action means: to load a file is to get one more tree, to save one is to write its value. -/
def Action.onForest (z : Zlib) (env : Environment) (depth : Nat) (S : Situation Forest) : Action → Option (Outcome Seen × Situation Forest)
  | .op o =>
    match o.onForest depth S.memory with
    | some (.ok v, F) => some (.returned v, { S with memory := F })
    | some (.error e, F) => some (.raised e, { S with memory := F })
    | none => none
  | .parse p =>
    match DatFile.parse z S.disk p with
    | .raised e => some (.raised e, S)
    | .crashed => some (.crashed, S)
    | .returned d =>
      let r := Forest.hand { S.memory with trees := S.memory.trees ++ [d.object d.old] } (S.memory.trees.length, [])
      some (.returned r.1, { S with memory := r.2 })
  | .save o p =>
    match S.memory.value o with
    | .obj cls ts =>
      if cls = lit "DatFile" then
        match ObjTree.written depth (.obj cls ts) with
        | .error e => some (.raised e, S)
        | .ok bs =>
          match writeBytes env S.disk p (z.compress bs) with
          | (disk, .returned _) => some (.returned .none, { S with disk := disk })
          | (disk, .raised e) => some (.raised e, { S with disk := disk })
          | (disk, .crashed) => some (.crashed, { S with disk := disk })
      else some (.raised .attributeError, S)
    | _ => some (.raised .attributeError, S)

/-- One action of a script, on values. -/
def Script.stepF (P : Script σ α) (z : Zlib) (env : Environment) (depth : Nat) : Status σ Forest → Option (Status σ Forest)
  | .crashed disk => some (.crashed disk)
  | .running st S =>
    match P st with
    | .stop _ => some (.running st S)
    | .call a next =>
      match a.onForest z env depth S with
      | none => none
      | some (.returned v, S') => some (.running (next (.ok v)) S')
      | some (.raised e, S') => some (.running (next (.error e)) S')
      | some (.crashed, S') => some (.crashed S'.disk)

/-- The first `n` actions of a script, on values. -/
def Script.runF (P : Script σ α) (z : Zlib) (env : Nat → Environment) (depth : Nat) : Nat → Status σ Forest → Option (Status σ Forest)
  | 0, st => some st
  | n + 1, st =>
    match P.runF z env depth n st with
    | some st => P.stepF z (env n) depth st
    | none => none

/-- A program from beginning to end, on values. -/
def Prog.onForest (z : Zlib) (env : Nat → Environment) (depth : Nat) : Prog α → Nat → Situation Forest → Option (Outcome α × Nat × Situation Forest)
  | .done a, i, S => some (.returned a, i, S)
  | .raised e, i, S => some (.raised e, i, S)
  | .act a next handler, i, S =>
    match a.onForest z (env i) depth S with
    | none => none
    | some (.returned v, S') => (next v).onForest z env depth (i + 1) S'
    | some (.raised e, S') => (handler e).onForest z env depth (i + 1) S'
    | some (.crashed, S') => some (.crashed, i + 1, S')

/-- The objects in memory are these trees: every tree is represented; no object that can change is part of two trees, or twice of one; and
the names are those of the objects at the spots. -/
def Holds (W : Memory) (F : Forest) (roots : List HVal) (fp : List Nat) : Prop :=
  RepItems W.heap roots F.trees fp ∧ (∀ a, W.heap.Mutable a → fp.count a ≤ 1) ∧ W.names.length = F.spots.length ∧
  ∀ (h r : Nat) (p : ObjPath), F.spots[h]? = some (r, p) → ∃ root a, roots[r]? = some root ∧ W.names[h]? = some (.ref a) ∧
    W.heap.follow root p = some (.ref a)

/-- What a script leaves alone: the objects that are not part of the trees; and it makes only new objects parts of them. -/
structure Kept (H H' : Heap) (fp fp' : List Nat) : Prop where
  length : H.length ≤ H'.length
  same : ∀ b, b < H.length → b ∉ fp → H'[b]? = H[b]?
  sub : ∀ b ∈ fp', b ∈ fp ∨ H.length ≤ b

/-- A script in memory is where the script on values is: in the same state of its own, with the same files, the objects of the script being
those trees; and it has left alone what was not part of the trees at the start (`H0`, `fp0`), and still knows the names it had. -/
def Agrees (H0 : Heap) (names0 : List HVal) (fp0 : List Nat) : Status σ Memory → Status σ Forest → Prop
  | .running st S, .running st' S' => st = st' ∧ S.disk = S'.disk ∧
      (∃ roots fp, Holds S.memory S'.memory roots fp ∧ Kept H0 S.memory.heap fp0 fp) ∧ names0 <+: S.memory.names
  | .crashed disk, .crashed disk' => disk = disk'
  | _, _ => False

end Genie
