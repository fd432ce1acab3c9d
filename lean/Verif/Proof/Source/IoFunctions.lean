import Verif.Proof.Source.Io
import Verif.Proof.Heap.AsdictRun
import Verif.Props.C61_SourceWriters
/-!
# `parse`, `save`, `dat_to_json` and the programs of the README, from their source
-/

namespace Genie.Src

/-- What `DatFile.parse` does, as a computation of the interpreter. -/
def parsed (P : Platform) (p : Path) : IM IVal := fun w =>
  match DatFile.parseObject P.zlib w.disk p w.heap with
  | .returned (o, H) => ({ w with heap := H }, .returned (.p (.h o)))
  | .raised e => (w, .raised e)
  | .crashed => (w, .crashed)

theorem parse_source (P : Platform) (n : Nat) (hn : 13 ≤ n) (w : World) (x : IVal) (p : Path) (hx : x.asPath = some p) :
    callIo P (n + 1) n!"DatFile" n!"parse" [.p (.cls n!"DatFile"), x] w = parsed P p w := by
  have hf : functionIo n!"DatFile" n!"parse" = some (module_datfile, [], DatFile.src_parse) := rfl
  have hb : bindIo DatFile.src_parse.params [.p (.cls n!"DatFile"), x] = some [(n!"cls", .p (.cls n!"DatFile")), (n!"input_file", x)] := rfl
  have h1 := read_bytes_source (P := P) (call := callIo P n) (room := n) (x := n!"input_file") (v := x) (p := p)
    (ρ := [(n!"cls", .p (.cls n!"DatFile")), (n!"input_file", x)]) rfl hx rfl w
  unfold parsed DatFile.parseObject
  cases hd : w.disk p with
  | none => rw [hd] at h1; exact callIo_raised hf hb (assign_raised h1)
  | some b =>
    rw [hd] at h1
    dsimp only
    cases hz : P.zlib.decompress b with
    | none =>
      refine callIo_raised hf hb ((assign_ok h1).trans (assign_raised ?_))
      show (match P.zlib.decompress b with | some d => IM.done (IVal.p (.bytes d)) | none => IM.fail PyErr.zlibError) w = _
      rw [hz]
      rfl
    | some d =>
      dsimp only
      have h2 : ∀ ρ, find n!"content" ρ = some (.p (.bytes b)) → find n!"zlib" ρ = none → evalIo P module_datfile [] (callIo P n) n
          (.call (.attr (.name n!"zlib") n!"decompress") (.arg (.name n!"content") (.kw n!"wbits" (.neg (.int 15)) .argNil))) ρ w = (w, .returned (.p (.bytes d))) := by
        intro ρ g1 g2
        refine (IM.andThen_ok (a := .p (.lib n!"zlib")) (w' := w) ?_).trans ?_
        · show lookIo _ _ _ _ _ = _
          unfold lookIo
          rw [g2]
          rfl
        · refine (IM.andThen_ok (a := ⟨[.p (.bytes b)], [(n!"wbits", .p (.h (.int (-15))))]⟩) (w' := w) ?_).trans ?_
          · refine (IM.andThen_ok (a := .p (.bytes b)) (w' := w) ?_).trans rfl
            show lookIo _ _ _ _ _ = _
            unfold lookIo
            rw [g1]
            rfl
          · show (match P.zlib.decompress b with | some d => IM.done (IVal.p (.bytes d)) | none => IM.fail PyErr.zlibError) w = _
            rw [hz]
            rfl
      obtain ⟨n', rfl⟩ : ∃ n', n = n' + 1 := ⟨n - 1, by omega⟩
      have h0 := DatFile_from_bytes.mono (Nat.le_refl _) (n' + 1) hn w.heap (ByteHandler.new d)
      unfold Agrees at h0
      cases hbd : DatFile.build w.heap (ByteHandler.new d) with
      | error e =>
        rw [hbd] at h0
        refine callIo_raised hf hb ((assign_ok h1).trans ((assign_ok (h2 _ rfl rfl)).trans ((assign_ok (v := .handler (ByteHandler.new d)) (w' := w) rfl).trans (ret_raised ?_))))
        refine (IM.andThen_ok (a := .p (.cls n!"DatFile")) (w' := w) rfl).trans
          ((IM.andThen_ok (a := ⟨[.handler (ByteHandler.new d)], []⟩) (w' := w) rfl).trans ?_)
        show IM.andThen (inner (ByteHandler.new d) (fromBytes (n' + 1) n!"DatFile")) (fun r => IM.done (IVal.p r.1)) w = _
        exact IM.andThen_raised (inner_error h0)
      | ok r =>
        obtain ⟨o, H', s'⟩ := r
        rw [hbd] at h0
        obtain ⟨t, h3, -⟩ := h0
        refine callIo_ret hf hb ((assign_ok h1).trans ((assign_ok (h2 _ rfl rfl)).trans ((assign_ok (v := .handler (ByteHandler.new d)) (w' := w) rfl).trans (ret_ok ?_))))
        refine (IM.andThen_ok (a := .p (.cls n!"DatFile")) (w' := w) rfl).trans
          ((IM.andThen_ok (a := ⟨[.handler (ByteHandler.new d)], []⟩) (w' := w) rfl).trans ?_)
        show IM.andThen (inner (ByteHandler.new d) (fromBytes (n' + 1) n!"DatFile")) (fun r => IM.done (IVal.p r.1)) w = _
        exact IM.andThen_ok (inner_ok h3)

/-- What `save` does, as a computation of the interpreter. -/
def saved (P : Platform) (depth : Nat) (o : HVal) (p : Path) : IM IVal := fun w =>
  match W.save P.zlib P.env w.disk w.heap depth o p with
  | (d, .returned _) => ({ w with disk := d }, .returned (.p (.h .none)))
  | (d, .raised e) => ({ w with disk := d }, .raised e)
  | (d, .crashed) => ({ w with disk := d }, .crashed)

/-- `self.to_bytes()` without an argument: `version` is `Version.UNDEFINED`. -/
theorem default_version (k : Nat) (o : HVal) :
    callN (k + 1) (.h o) n!"DatFile" n!"to_bytes" ⟨[], []⟩ = callN (k + 1) (.h o) n!"DatFile" n!"to_bytes" ⟨[.version .UNDEFINED], []⟩ := rfl

theorem objMethod_default {H : Heap} {o : HVal} (hi : IsA H o n!"DatFile") (k : Nat) (s : ByteHandler) :
    objMethod (callN (k + 1)) o n!"to_bytes" ⟨[], []⟩ H s = toBytes (k + 1) o .UNDEFINED H s := by
  obtain ⟨name, attrs, hc, hn⟩ := hi
  unfold toBytes objMethod
  rw [hc]
  dsimp only
  rw [hn, default_version]

/-- `Path(x).write_bytes(y)`, where `x` and `y` are local variables. -/
theorem write_bytes_source {P : Platform} {call : ICall} {room : Nat} {x y : Name} {v : IVal} {p : Path} {b : Bytes} {ρ : IEnv} (hx : find x ρ = some v)
    (hp : v.asPath = some p) (hy : find y ρ = some (.p (.bytes b))) (hP : find n!"Path" ρ = none) (w : World) :
    evalIo P module_datfile [] call room (.call (.attr (.call (.name n!"Path") (.arg (.name x) .argNil)) n!"write_bytes") (.arg (.name y) .argNil)) ρ w =
      match writeBytes P.env w.disk p b with
      | (d, .returned _) => ({ w with disk := d }, .returned (.p (.h (.int b.length))))
      | (d, .raised e) => ({ w with disk := d }, .raised e)
      | (d, .crashed) => ({ w with disk := d }, .crashed) := by
  refine (IM.andThen_ok (path_source hx hp hP w)).trans ((IM.andThen_ok (a := ⟨[.p (.bytes b)], []⟩) (w' := w) ?_).trans rfl)
  refine (IM.andThen_ok (a := .p (.bytes b)) (w' := w) ?_).trans rfl
  show lookIo _ _ _ _ _ = _
  unfold lookIo
  rw [hy]
  rfl

theorem save_source (P : Platform) (n depth : Nat) (hn : 4 * depth + 2 ≤ n) (w : World) (hk : OfPackage w.heap) (o : HVal) (hi : IsA w.heap o n!"DatFile")
    (hd : W.toBytes w.heap depth o .UNDEFINED ≠ .error .recursionError) (x : IVal) (p : Path) (hx : x.asPath = some p) :
    callIo P (n + 1) n!"DatFile" n!"save" [.p (.h o), x] w = saved P depth o p w := by
  have hf : functionIo n!"DatFile" n!"save" = some (module_datfile, [], DatFile.src_save) := rfl
  have hb : bindIo DatFile.src_save.params [.p (.h o), x] = some [(n!"self", .p (.h o)), (n!"target_file", x)] := rfl
  obtain ⟨n', rfl⟩ : ∃ n', n = n' + 1 := ⟨n - 1, by omega⟩
  have h0 := C61_to_bytes_of_every_object w.heap hk (ByteHandler.new []) o .UNDEFINED depth (n' + 1) hn hd
  have hcl : classOf w.heap o = some n!"DatFile" := by
    obtain ⟨name, attrs, hc, hn⟩ := hi
    unfold classOf
    rw [hc]
    dsimp only
    rw [hn]
  have e1 : ∀ ρ, find n!"self" ρ = some (.p (.h o)) → evalIo P module_datfile [] (callIo P (n' + 1)) (n' + 1) (.call (.attr (.name n!"self") n!"to_bytes") .argNil) ρ w =
      IM.andThen (object (objMethod (callN (n' + 1)) o n!"to_bytes" ⟨[], []⟩)) (fun r => .done (.p r)) w := by
    intro ρ hs
    refine (IM.andThen_ok (a := .p (.h o)) (w' := w) ?_).trans ((IM.andThen_ok (a := ⟨[], []⟩) (w' := w) rfl).trans ?_)
    · show lookIo _ _ _ _ _ = _
      unfold lookIo
      rw [hs]
      rfl
    · show (match classOf w.heap o with
        | some c => _
        | none => _) = _
      rw [hcl]
      rfl
  unfold WritesLike at h0
  unfold saved W.save
  cases hw : W.toBytes w.heap depth o .UNDEFINED with
  | error e =>
    rw [hw] at h0
    dsimp only at h0 ⊢
    rw [← objMethod_default hi] at h0
    exact callIo_raised hf hb (assign_raised ((e1 _ rfl).trans (IM.andThen_raised (object_error h0))))
  | ok bs =>
    rw [hw] at h0
    dsimp only at h0 ⊢
    rw [← objMethod_default hi] at h0
    have e2 := (e1 [(n!"self", .p (.h o)), (n!"target_file", x)] rfl).trans (IM.andThen_ok (object_ok h0))
    have e3 : execIo P module_datfile [] (callIo P (n' + 1)) (n' + 1) DatFile.src_save.body [(n!"self", .p (.h o)), (n!"target_file", x)] w =
        execIo P module_datfile [] (callIo P (n' + 1)) (n' + 1)
          (.expr (.call (.attr (.call (.name n!"Path") (.arg (.name n!"target_file") .argNil)) n!"write_bytes") (.arg (.name n!"compressed") .argNil)) .done)
          [(n!"self", .p (.h o)), (n!"target_file", x), (n!"uncompressed", .p (.bytes bs)), (n!"compressed", .p (.bytes (P.zlib.compress bs)))] w :=
      (assign_ok e2).trans (assign_ok rfl)
    have e4 := write_bytes_source (P := P) (call := callIo P (n' + 1)) (room := n' + 1) (x := n!"target_file") (y := n!"compressed") (v := x) (p := p)
      (b := P.zlib.compress bs) (ρ := [(n!"self", .p (.h o)), (n!"target_file", x), (n!"uncompressed", .p (.bytes bs)), (n!"compressed", .p (.bytes (P.zlib.compress bs)))])
      rfl hx rfl rfl w
    cases hwr : writeBytes P.env w.disk p (P.zlib.compress bs) with
    | mk d out =>
      rw [hwr] at e4
      cases out with
      | returned u => exact callIo_next hf hb (e3.trans (expr_ok e4))
      | raised e => exact callIo_raised hf hb (e3.trans (expr_raised e4))
      | crashed => exact callIo_crashed hf hb (e3.trans (expr_crashed e4))

end Genie.Src
