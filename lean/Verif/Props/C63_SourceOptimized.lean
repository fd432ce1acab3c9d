import Verif.Proof.Source.Asserts
import Verif.Props.C61_SourceWriters
import Verif.Props.C36_C37_Errors
import Verif.Props.C08_C10_Readers
/-!
# C63: `python -O`, from the source

With `-O`, Python leaves out `assert` statements (`callO`, `Verif/Py/InterpO.lean`: the interpreter of C60–C61 on blocks without them).  For every
function of the package, every receiver, all arguments, objects and handlers: both executions have the same outcome, unless the one with
assertions raises in an assertion.
-/

namespace Genie.Src

/-- Does the block contain an `assert` statement? -/
def St.asserts : St → Bool
  | .done => false
  | .assign _ _ rest => rest.asserts
  | .aug _ _ _ rest => rest.asserts
  | .unpack _ _ rest => rest.asserts
  | .setAttr _ _ _ rest => rest.asserts
  | .expr _ rest => rest.asserts
  | .assert _ _ => true
  | .ite _ a b rest => a.asserts || b.asserts || rest.asserts
  | .forIn _ _ body rest => body.asserts || rest.asserts
  | .ret _ => false
  | .raise _ => false

/-- The functions with assertions. -/
theorem C63_where : (classes.flatMap fun c => (c.funs.filter fun f => f.body.asserts).map fun f => (c.name, f.name)) =
    [(n!"ByteHandler", n!"read_debug_string"), (n!"TerrainRestriction", n!"to_bytes"), (n!"RandomMaps", n!"to_bytes"), (n!"DatFile", n!"to_bytes")] := by
  decide +kernel

/-- What is left out has no `assert` statement, and where there is none, nothing is left out. -/
theorem C63_left_out (st : St) : (st.opt true).asserts = false ∧ (st.asserts = false → st.opt true = st) := by
  induction st with
  | done => exact ⟨rfl, fun _ => rfl⟩
  | assign x e rest ih => exact ⟨ih.1, fun h => congrArg (St.assign x e) (ih.2 h)⟩
  | aug x op e rest ih => exact ⟨ih.1, fun h => congrArg (St.aug x op e) (ih.2 h)⟩
  | unpack xs e rest ih => exact ⟨ih.1, fun h => congrArg (St.unpack xs e) (ih.2 h)⟩
  | setAttr t a e rest ih => exact ⟨ih.1, fun h => congrArg (St.setAttr t a e) (ih.2 h)⟩
  | expr e rest ih => exact ⟨ih.1, fun h => congrArg (St.expr e) (ih.2 h)⟩
  | assert c rest ih => exact ⟨ih.1, fun h => by cases h⟩
  | ite c a b rest iha ihb ih =>
    refine ⟨?_, fun h => ?_⟩
    · change ((a.opt true).asserts || (b.opt true).asserts || (rest.opt true).asserts) = false
      rw [iha.1, ihb.1, ih.1]; rfl
    · have h' : (a.asserts || b.asserts || rest.asserts) = false := h
      rw [Bool.or_eq_false_iff, Bool.or_eq_false_iff] at h'
      change St.ite c (a.opt true) (b.opt true) (rest.opt true) = _
      rw [iha.2 h'.1.1, ihb.2 h'.1.2, ih.2 h'.2]
  | forIn x it body rest ihb ih =>
    refine ⟨?_, fun h => ?_⟩
    · change ((body.opt true).asserts || (rest.opt true).asserts) = false
      rw [ihb.1, ih.1]; rfl
    · have h' : (body.asserts || rest.asserts) = false := h
      rw [Bool.or_eq_false_iff] at h'
      change St.forIn x it (body.opt true) (rest.opt true) = _
      rw [ihb.2 h'.1, ih.2 h'.2]
  | ret e => exact ⟨rfl, fun _ => rfl⟩
  | raise e => exact ⟨rfl, fun _ => rfl⟩

/-- Any function of the package, called in any way: with `-O` the outcome — result, objects, handler, or exception — is the same, or without `-O`
it is an `AssertionError`, or a `TypeError` or `AttributeError` (from `len(…)` and attributes, as the conditions of the assertions use). -/
theorem C63_every_function (room : Nat) (receiver : PVal) (c f : Name) (as : Args) (H : Heap) (s : ByteHandler) :
    callO room receiver c f as H s = callN room receiver c f as H s ∨
    ∃ e, (e = .assertionError ∨ e = .typeError ∨ e = .attributeError) ∧ callN room receiver c f as H s = .error e := by
  rcases callO_upto room receiver c f as H s with ⟨h, -⟩ | h
  · exact .inl h.symm
  · exact .inr h

/-- What works, works with `-O`, and does the same. -/
theorem C63_success (room : Nat) (receiver : PVal) (c f : Name) (as : Args) (H : Heap) (s : ByteHandler) (r : PVal × Heap × ByteHandler)
    (h : callN room receiver c f as H s = .ok r) : callO room receiver c f as H s = .ok r := by
  rcases C63_every_function room receiver c f as H s with h' | ⟨e, -, h'⟩
  · rw [h', h]
  · rw [h] at h'; cases h'

/-- Execute `C.from_bytes(content)` with `-O`. -/
def fromBytesO (room : Nat) (c : Name) : M PVal := callO room (.cls c) c n!"from_bytes" ⟨[.handler], []⟩

/-- Execute `o.to_bytes(ver)` with `-O`. -/
def toBytesO (room : Nat) (o : HVal) (ver : Version) : M PVal := objMethod (callO room) o n!"to_bytes" ⟨[.version ver], []⟩

/-- Reading a file with `-O`: the same objects, or the same exception — unless it is an `AssertionError`. -/
theorem C63_load (room : Nat) (hr : 13 ≤ room) (H : Heap) (s : ByteHandler) :
    fromBytesO room n!"DatFile" H s = fromBytes room n!"DatFile" H s ∨ fromBytes room n!"DatFile" H s = .error .assertionError := by
  rcases C63_every_function room (.cls n!"DatFile") n!"DatFile" n!"from_bytes" ⟨[.handler], []⟩ H s with h | ⟨e, he, h⟩
  · exact .inl h
  · right
    cases hd : DatFile.fromBytes s with
    | error e' =>
      have h1 := (C60_load room hr H s).1 e' hd
      have h2 : fromBytes room n!"DatFile" H s = .error e := h
      rw [h1] at h2
      cases h2
      rw [h1]
      rcases C10_datfile_errors s _ hd with rfl | rfl | rfl | rfl
      · rcases he with h | h | h <;> cases h
      · rfl
      · rcases he with h | h | h <;> cases h
      · rcases he with h | h | h <;> cases h
    | ok r =>
      obtain ⟨d, s'⟩ := r
      obtain ⟨v, N, fp, t, h1, -⟩ := (C60_load room hr H s).2 d s' hd
      have h2 : fromBytes room n!"DatFile" H s = .error e := h
      rw [h1] at h2
      cases h2

/-- `o.to_bytes(ver)` with `-O`, for any object: the same, unless an assertion raises. -/
theorem C63_write (room : Nat) (o : HVal) (ver : Version) (H : Heap) (s : ByteHandler) :
    toBytesO room o ver H s = toBytes room o ver H s ∨
    ∃ e, (e = .assertionError ∨ e = .typeError ∨ e = .attributeError) ∧ toBytes room o ver H s = .error e := by
  rcases UptoQ.objMethod (callO_upto room) o n!"to_bytes" ⟨[.version ver], []⟩ H s with ⟨h, -⟩ | h
  · exact .inl h.symm
  · exact .inr h

/-- Writing objects with the value `d` with `-O`: the same bytes or the same exception — unless it is an `AssertionError`, and then the lists that
should have the same length have not. -/
theorem C63_save (H : Heap) (hk : OfPackage H) (s : ByteHandler) (o : HVal) (t : ObjTree) (fp : List Nat) (r : Rep H o t fp) (d : DatFile)
    (hc : Carries t (d.object false)) (hs : d.Sized) (room : Nat) (hr : 22 ≤ room) (ver : Version) :
    toBytesO room o ver H s = toBytes room o ver H s ∨ (toBytes room o ver H s = .error .assertionError ∧ d.Mismatched) := by
  rcases C63_write room o ver H s with h | ⟨e, he, h⟩
  · exact .inl h
  · right
    have hw := C61_save H hk s o t fp r d hc hs room hr ver
    unfold WritesLike at hw
    cases hd : d.toBytes with
    | ok bs => rw [hd] at hw; dsimp only at hw; rw [hw] at h; cases h
    | error e' =>
      rw [hd] at hw
      dsimp only at hw
      rw [hw] at h
      cases h
      rw [hw]
      rcases C37_datfile_errors d e hd with h | ⟨rfl, h⟩ | ⟨rfl, h⟩ | ⟨rfl, h⟩
      · unfold ValueErr at h
        rcases he with rfl | rfl | rfl <;> simp at h
      · exact ⟨rfl, h⟩
      · rcases he with h | h | h <;> cases h
      · rcases he with h | h | h <;> cases h

/-- Reading and writing a file that can be read, both with `-O`: the same objects and the same bytes as without. -/
theorem C63_load_then_save (H : Heap) (hk : OfPackage H) (s s' : ByteHandler) (d : DatFile) (hd : DatFile.fromBytes s = .ok (d, s'))
    (room : Nat) (hr : 22 ≤ room) :
    ∃ v H' t bs, fromBytes room n!"DatFile" H s = .ok (.h v, H', t) ∧ fromBytesO room n!"DatFile" H s = .ok (.h v, H', t) ∧
      DatFile.toBytes d = .ok bs ∧ ∀ ver, toBytes room v ver H' t = .ok (.bytes bs, H', t) ∧ toBytesO room v ver H' t = .ok (.bytes bs, H', t) := by
  obtain ⟨v, N, fp, t, hp, ho, hv, r, nd, fr⟩ := (C60_load room (by omega) H s).2 d s' hd
  obtain ⟨bs, hb, s2, h2⟩ := C14_parsed_can_be_saved _ _ _ hd
  have hk' : OfPackage (H ++ N) := (C61_objects_keep_class room _ _ _ _ _ _ _ _ _ hp).2.2.2.2 hk
  refine ⟨v, H ++ N, t, bs, hp, C63_success room _ _ _ _ _ _ _ hp, hb, fun ver => ?_⟩
  have hw : toBytes room v ver (H ++ N) t = .ok (.bytes bs, H ++ N, t) := by
    have := C61_save (H ++ N) hk' t v _ fp r d (DatFile.converts _ d).carries (C13_parsed_wellformed _ _ _ hd).sized room hr ver
    rw [hb] at this
    exact this
  refine ⟨hw, ?_⟩
  rcases C63_write room v ver (H ++ N) t with h | ⟨e, -, h⟩
  · rw [h, hw]
  · rw [hw] at h; cases h

/-! ## the two executions do differ -/

/-- A debug string without the marker `0x0A60`: `AssertionError`, but with `-O` it is read. -/
example :
    (match callN 9 .handler n!"ByteHandler" n!"read_debug_string" ⟨[], []⟩ [] (ByteHandler.new [1, 2, 1, 0, 65]) with | .error e => some e | _ => none) =
      some .assertionError ∧
    (match callO 9 .handler n!"ByteHandler" n!"read_debug_string" ⟨[], []⟩ [] (ByteHandler.new [1, 2, 1, 0, 65]) with
      | .ok (.h v, _, s) => some (v, s.offset) | _ => none) = some (.str (lit "A"), 5) := by
  constructor <;> decide +kernel

/-- And one with the marker: the same. -/
example :
    (match callN 9 .handler n!"ByteHandler" n!"read_debug_string" ⟨[], []⟩ [] (ByteHandler.new [0x60, 0x0A, 1, 0, 65]) with
      | .ok (.h v, _, s) => some (v, s.offset) | _ => none) = some (.str (lit "A"), 5) ∧
    (match callO 9 .handler n!"ByteHandler" n!"read_debug_string" ⟨[], []⟩ [] (ByteHandler.new [0x60, 0x0A, 1, 0, 65]) with
      | .ok (.h v, _, s) => some (v, s.offset) | _ => none) = some (.str (lit "A"), 5) := by
  constructor <;> decide +kernel

end Genie.Src
