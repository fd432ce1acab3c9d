import Verif.Proof.Source.IoFunctions
import Verif.Props.C52_Equality
import Verif.Model.Scripts
/-!
# `dat_to_json` and `main`, from their source
-/

namespace Genie.Src

/-- What `dat_to_json` does with the arguments `argparse` finds; the objects it leaves behind are `H`. -/
def converted (P : Platform) (w : World) (H : Heap) : World × Outcome IVal :=
  match P.arguments ["filename"] with
  | .error e => ({ w with positionals := ["filename"], heap := H }, .raised e)
  | .ok [] => ({ w with positionals := ["filename"], heap := H }, .raised .attributeError)
  | .ok (file :: _) =>
    match datToJson P.digits P.zlib w.disk file with
    | .raised e => ({ w with positionals := ["filename"], heap := H }, .raised e)
    | .crashed => ({ w with positionals := ["filename"], heap := H }, .crashed)
    | .returned text => ({ w with positionals := ["filename"], heap := H, printed := w.printed ++ text }, .returned (.p (.h .none)))

/-- `dataclasses.asdict` of what `parse` returns. -/
theorem asdict_parsed {H : Heap} {o : HVal} {d : DatFile} {fp : List Nat} (r : Rep H o (d.object d.old) fp) (hd : d.WF) (n : Nat) (hn : 9 ≤ n) :
    W.asdict H n o = .ok d.tree := by
  obtain ⟨v, hd⟩ := hd
  have w := (C48_fits_iff _).2 ⟨d, DatFile.lengths hd, DatFile.converts d.old d⟩
  have hh := Nat.le_trans (C52_room _ w) hn
  have hx := w.exact
  have e := DatFile.object_asdict d.old d
  unfold DatFile.tree
  rw [← e]
  revert r hh hx
  cases h : DatFile.object d.old d with
  | obj c ts => exact fun r hh hx => W.asdict_run r hx n hh
  | _ => cases h

theorem dat_to_json_source (P : Platform) (n : Nat) (hn : 14 ≤ n) (w : World) :
    ∃ H, callIo P (n + 1) n!"scripts" n!"dat_to_json" [] w = converted P w H := by
  have hf : functionIo n!"scripts" n!"dat_to_json" = some (module_scripts, Scripts.functions, Scripts.src_dat_to_json) := rfl
  have hb : bindIo Scripts.src_dat_to_json.params [] = some [] := rfl
  have h12 : execIo P module_scripts Scripts.functions (callIo P n) n Scripts.src_dat_to_json.body [] w =
      execIo P module_scripts Scripts.functions (callIo P n) n
        (.assign n!"args" (.call (.attr (.name n!"parser") n!"parse_args") .argNil)
        (.assign n!"dat_file" (.call (.attr (.name n!"DatFile") n!"parse") (.arg (.attr (.name n!"args") n!"filename") .argNil))
        (.expr (.call (.name n!"print") (.arg (.call (.attr (.name n!"json") n!"dumps") (.arg (.call (.attr (.name n!"dataclasses") n!"asdict") (.arg (.name n!"dat_file") .argNil)) (.kw n!"indent" (.int 2) .argNil))) .argNil))
        .done)))
        [(n!"parser", .parser)] { w with positionals := ["filename"] } :=
    (assign_ok (w' := { w with positionals := [] }) (v := .parser) rfl).trans (expr_ok (w' := { w with positionals := ["filename"] }) (v := .p (.h .none)) rfl)
  have h3 : evalIo P module_scripts Scripts.functions (callIo P n) n (.call (.attr (.name n!"parser") n!"parse_args") .argNil) [(n!"parser", .parser)]
      { w with positionals := ["filename"] } =
      match P.arguments ["filename"] with
      | .ok vs => ({ w with positionals := ["filename"] }, .returned (.parsed (["filename"].zip vs)))
      | .error e => ({ w with positionals := ["filename"] }, .raised e) := rfl
  unfold converted
  cases ha : P.arguments ["filename"] with
  | error e =>
    rw [ha] at h3
    exact ⟨w.heap, callIo_raised hf hb (h12.trans (assign_raised h3))⟩
  | ok vs =>
    rw [ha] at h3
    cases vs with
    | nil => exact ⟨w.heap, callIo_raised hf hb (h12.trans ((assign_ok h3).trans (assign_raised rfl)))⟩
    | cons file more =>
      obtain ⟨n', rfl⟩ : ∃ n', n = n' + 1 := ⟨n - 1, by omega⟩
      have hp := parse_source P n' (by omega) { w with positionals := ["filename"] } (.path file) file rfl
      have h4 : evalIo P module_scripts Scripts.functions (callIo P (n' + 1)) (n' + 1)
          (.call (.attr (.name n!"DatFile") n!"parse") (.arg (.attr (.name n!"args") n!"filename") .argNil))
          [(n!"parser", .parser), (n!"args", .parsed (["filename"].zip (file :: more)))] { w with positionals := ["filename"] } =
          parsed P file { w with positionals := ["filename"] } := by
        refine (IM.andThen_ok (a := .p (.cls n!"DatFile")) (w' := { w with positionals := ["filename"] }) rfl).trans
          ((IM.andThen_ok (a := ⟨[.path file], []⟩) (w' := { w with positionals := ["filename"] }) ?_).trans ?_)
        case refine_2 => exact hp
        refine (IM.andThen_ok (a := .path file) (w' := { w with positionals := ["filename"] }) ?_).trans rfl
        refine (IM.andThen_ok (a := .parsed [("filename", file)]) (w' := { w with positionals := ["filename"] }) rfl).trans ?_
        have hname : Nat.beq n!"filename" (Name.ofStr (lit "filename")) = true := by decide +kernel
        unfold attrIo
        simp only [List.find?, hname]
        rfl
      have h5 := C47_parse P.zlib w.disk file w.heap
      unfold parsed at h4
      dsimp only at h4 ⊢
      unfold datToJson
      cases hq : DatFile.parse P.zlib w.disk file with
      | raised e =>
        rw [hq] at h5
        dsimp only at h5
        rw [h5] at h4
        exact ⟨w.heap, callIo_raised hf hb (h12.trans ((assign_ok h3).trans (assign_raised h4)))⟩
      | crashed => rw [hq] at h5; exact h5.elim
      | returned d =>
        rw [hq] at h5
        obtain ⟨o, N, fp, e1, r, -, -, hwf⟩ := h5
        rw [e1] at h4
        dsimp only at h4
        have h6 := asdict_parsed r hwf (n' + 1) (by omega)
        refine ⟨w.heap ++ N, callIo_next hf hb (h12.trans ((assign_ok h3).trans ((assign_ok h4).trans (expr_ok (v := .p (.h .none)) ?_))))⟩
        have h7 : ∀ ρ, find n!"dat_file" ρ = some (.p (.h o)) → find n!"dataclasses" ρ = none → evalIo P module_scripts Scripts.functions (callIo P (n' + 1)) (n' + 1)
            (.call (.attr (.name n!"dataclasses") n!"asdict") (.arg (.name n!"dat_file") .argNil)) ρ
            { w with positionals := ["filename"], heap := w.heap ++ N } = ({ w with positionals := ["filename"], heap := w.heap ++ N }, .returned (.tree d.tree)) := by
          intro ρ g1 g2
          refine (IM.andThen_ok (a := .p (.lib n!"dataclasses")) (w' := { w with positionals := ["filename"], heap := w.heap ++ N }) ?_).trans
            ((IM.andThen_ok (a := ⟨[.p (.h o)], []⟩) (w' := { w with positionals := ["filename"], heap := w.heap ++ N }) ?_).trans ?_)
          · show lookIo _ _ _ _ _ = _
            unfold lookIo
            rw [g2]
            rfl
          · refine (IM.andThen_ok (a := .p (.h o)) (w' := { w with positionals := ["filename"], heap := w.heap ++ N }) ?_).trans rfl
            show lookIo _ _ _ _ _ = _
            unfold lookIo
            rw [g1]
            rfl
          · show (match W.asdict (w.heap ++ N) (n' + 1) o with
              | Except.ok t => _
              | Except.error e => _) = _
            rw [h6]
        refine (IM.andThen_ok (a := .p (.lib n!"print")) (w' := { w with positionals := ["filename"], heap := w.heap ++ N }) rfl).trans
          ((IM.andThen_ok (a := ⟨[.string (Json.dumps P.digits d.tree)], []⟩) (w' := { w with positionals := ["filename"], heap := w.heap ++ N }) ?_).trans rfl)
        refine (IM.andThen_ok (a := .string (Json.dumps P.digits d.tree)) (w' := { w with positionals := ["filename"], heap := w.heap ++ N }) ?_).trans rfl
        refine (IM.andThen_ok (a := .p (.lib n!"json")) (w' := { w with positionals := ["filename"], heap := w.heap ++ N }) rfl).trans
          ((IM.andThen_ok (a := ⟨[.tree d.tree], [(n!"indent", .p (.h (.int 2)))]⟩) (w' := { w with positionals := ["filename"], heap := w.heap ++ N }) ?_).trans rfl)
        exact (IM.andThen_ok (h7 _ rfl rfl)).trans rfl

theorem main_source (P : Platform) (n : Nat) (hn : 15 ≤ n) (w : World) :
    ∃ H, callIo P (n + 1) n!"scripts" n!"main" [] w = converted P w H := by
  obtain ⟨n', rfl⟩ : ∃ n', n = n' + 1 := ⟨n - 1, by omega⟩
  obtain ⟨H, h⟩ := dat_to_json_source P n' (by omega) w
  refine ⟨H, ?_⟩
  have hf : functionIo n!"scripts" n!"main" = some (module_scripts, Scripts.functions, Scripts.src_main) := rfl
  have hb : bindIo Scripts.src_main.params [] = some [] := rfl
  have he : evalIo P module_scripts Scripts.functions (callIo P (n' + 1)) (n' + 1) (.call (.name n!"dat_to_json") .argNil) [] w = converted P w H := h
  cases hc : converted P w H with
  | mk w' out =>
    rw [hc] at he
    cases out with
    | raised e => exact callIo_raised hf hb (expr_raised he)
    | crashed => exact callIo_crashed hf hb (expr_crashed he)
    | returned v =>
      have hv : v = .p (.h .none) := by
        unfold converted at hc
        cases ha : P.arguments ["filename"] with
        | error e => rw [ha] at hc; cases hc
        | ok vs =>
          rw [ha] at hc
          cases vs with
          | nil => cases hc
          | cons file more =>
            dsimp only at hc
            cases hq : datToJson P.digits P.zlib w.disk file with
            | raised e => rw [hq] at hc; cases hc
            | crashed => rw [hq] at hc; cases hc
            | returned t => rw [hq] at hc; cases hc; rfl
      subst hv
      exact callIo_next hf hb (expr_ok he)

end Genie.Src
