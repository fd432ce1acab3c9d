import Verif.Proof.Source.IoScripts
import Verif.Proof.Source.IoReadme
import Verif.Props.C41_ValidJson
import Verif.Props.C43_Readme
/-!
# C62: `DatFile.parse`, `DatFile.save`, `dat-to-json` and the programs of the README, executed from their source

C60 and C61 execute the source of `from_bytes` and `to_bytes`.  Here it is the source of `DatFile.parse` and `DatFile.save`
(`/repo/src/genieutils/datfile.py:45-55`), of both functions of `/repo/src/genieutils/scripts.py`, and of the two programs of `/repo/README.md`
(`Verif/Model/SourceIo.lean`), with the interpreter of `Verif/Py/InterpIo.lean`.  They do what the theorems about files (C22 to C26), JSON (C34, C41)
and the README (C43) are about: to the disk, at every fault and crash of a write, to the standard output, and in the exceptions.

`room` is the number of calls that may be inside each other; Python allows 1000.
-/

namespace Genie.Src

/-- `DatFile.parse(input_file)`, where `input_file` is a string or a `Path`: the exception that C22 and C54 speak of, or a new object with the value that
reading the file gives; neither the disk nor the output nor an object that existed before changes. -/
theorem C62_parse (P : Platform) (room : Nat) (hr : 14 ≤ room) (w : World) (input_file : IVal) (p : Path) (hx : input_file.asPath = some p) :
    match DatFile.parse P.zlib w.disk p with
    | .raised e => callIo P room n!"DatFile" n!"parse" [.p (.cls n!"DatFile"), input_file] w = (w, .raised e)
    | .crashed => False
    | .returned d => ∃ o N fp, callIo P room n!"DatFile" n!"parse" [.p (.cls n!"DatFile"), input_file] w =
        ({ w with heap := w.heap ++ N }, .returned (.p (.h o))) ∧ Rep (w.heap ++ N) o (d.object d.old) fp ∧ fp.Nodup ∧ (∀ a ∈ fp, w.heap.length ≤ a) := by
  obtain ⟨n, rfl⟩ : ∃ n, room = n + 1 := ⟨room - 1, by omega⟩
  have h1 := parse_source P n (by omega) w input_file p hx
  have h2 := C47_parse P.zlib w.disk p w.heap
  unfold parsed at h1
  cases hq : DatFile.parse P.zlib w.disk p with
  | raised e => rw [hq] at h2; dsimp only at h2 ⊢; rw [h1, h2]
  | crashed => rw [hq] at h2; exact h2.elim
  | returned d =>
    rw [hq] at h2
    obtain ⟨o, N, fp, e1, r, nd, fr, -⟩ := h2
    rw [e1] at h1
    exact ⟨o, N, fp, h1, r, nd, fr⟩

/-- `data.save(target_file)`, where `data` has the value `d` (C47; `d.Sized`: no list is longer than its count field can say): what it does to
the disk — all of it, if the environment lets it, or a part — and how it ends are those of C23 to C26; nothing else changes. -/
theorem C62_save (P : Platform) (room : Nat) (hr : 23 ≤ room) (w : World) (hk : OfPackage w.heap) (o : HVal) (old : Bool) (d : DatFile) (fp : List Nat)
    (r : Rep w.heap o (d.object old) fp) (hs : d.Sized) (target_file : IVal) (p : Path) (hx : target_file.asPath = some p) :
    callIo P room n!"DatFile" n!"save" [.p (.h o), target_file] w =
      ({ w with disk := (DatFile.save P.zlib P.env w.disk d p).1 },
        match (DatFile.save P.zlib P.env w.disk d p).2 with
        | .returned _ => .returned (.p (.h .none))
        | .raised e => .raised e
        | .crashed => .crashed) := by
  obtain ⟨n, rfl⟩ : ∃ n, room = n + 1 := ⟨room - 1, by omega⟩
  have hc := (DatFile.converts old d).carries
  have hne : W.toBytes w.heap 5 o .UNDEFINED ≠ .error .recursionError := by
    rw [C47_save w.heap o _ fp r d hc hs 5 (Nat.le_refl _) .UNDEFINED, ← C47_save w.heap o _ fp r d hc hs (5 + (d.object old).height) (by omega) .UNDEFINED]
    exact C47_any_room w.heap o _ fp r _ (by omega) .UNDEFINED
  rw [save_source P n 5 (by omega) w hk o (datFile_isA r) hne target_file p hx]
  unfold saved
  rw [C47_save_file P.zlib P.env w.disk w.heap o _ fp r d hc hs 5 (Nat.le_refl _) p]
  cases DatFile.save P.zlib P.env w.disk d p with
  | mk fs out => cases out <;> rfl

/-- `data.save(target_file)` of any instance of `DatFile`, among any objects of the package, whatever its attributes are: the model's `save`
(C47_any_save), or the model does not have the depth for `to_bytes`. -/
theorem C62_save_any (P : Platform) (room depth : Nat) (hr : 4 * depth + 3 ≤ room) (w : World) (hk : OfPackage w.heap) (a : Nat) (attrs : List (PyStr × HVal))
    (ha : w.heap[a]? = some (.record (lit "DatFile") attrs)) (hd : W.toBytes w.heap depth (.ref a) .UNDEFINED ≠ .error .recursionError)
    (target_file : IVal) (p : Path) (hx : target_file.asPath = some p) :
    callIo P room n!"DatFile" n!"save" [.p (.h (.ref a)), target_file] w =
      ({ w with disk := (W.save P.zlib P.env w.disk w.heap depth (.ref a) p).1 },
        match (W.save P.zlib P.env w.disk w.heap depth (.ref a) p).2 with
        | .returned _ => .returned (.p (.h .none))
        | .raised e => .raised e
        | .crashed => .crashed) := by
  obtain ⟨n, rfl⟩ : ∃ n, room = n + 1 := ⟨room - 1, by omega⟩
  rw [save_source P n depth (by omega) w hk (.ref a) ⟨_, attrs, ha, by decide +kernel⟩ hd target_file p hx]
  unfold saved
  cases W.save P.zlib P.env w.disk w.heap depth (.ref a) p with
  | mk fs out => cases out <;> rfl

/-- What the command `dat-to-json` shows: what it adds to the standard output and how it ends; `arguments` is what `argparse` makes of the command line. -/
structure Shows (P : Platform) (w w' : World) (out : Outcome IVal) : Prop where
  /-- files stay as they are -/
  disk : w'.disk = w.disk
  /-- `argparse` ends the program, for instance because the file name is missing -/
  usage : ∀ e, P.arguments ["filename"] = .error e → out = .raised e ∧ w'.printed = w.printed
  /-- an exception in `parse`: nothing is printed -/
  fails : ∀ file more e, P.arguments ["filename"] = .ok (file :: more) → DatFile.parse P.zlib w.disk file = .raised e → out = .raised e ∧ w'.printed = w.printed
  /-- the JSON text of the file and a line feed -/
  prints : ∀ file more d, P.arguments ["filename"] = .ok (file :: more) → DatFile.parse P.zlib w.disk file = .returned d →
    out = .returned (.p (.h .none)) ∧ w'.printed = w.printed ++ (Json.dumps P.digits d.tree ++ [10])

theorem converted_shows (P : Platform) (w : World) (H : Heap) : Shows P w (converted P w H).1 (converted P w H).2 := by
  unfold converted datToJson
  refine ⟨?_, fun e h => ?_, fun file more e h1 h2 => ?_, fun file more d h1 h2 => ?_⟩
  · cases P.arguments ["filename"] with
    | error e => rfl
    | ok vs =>
      cases vs with
      | nil => rfl
      | cons f more =>
        dsimp only
        cases DatFile.parse P.zlib w.disk f <;> rfl
  · rw [h]; exact ⟨rfl, rfl⟩
  · rw [h1]; dsimp only; rw [h2]; exact ⟨rfl, rfl⟩
  · rw [h1]; dsimp only; rw [h2]; exact ⟨rfl, rfl⟩

/-- The command `dat-to-json` — `dat_to_json()` — executed from its source: the text that C34 and C41 are about. -/
theorem C62_dat_to_json (P : Platform) (room : Nat) (hr : 15 ≤ room) (w : World) :
    ∃ w' out, callIo P room n!"scripts" n!"dat_to_json" [] w = (w', out) ∧ Shows P w w' out := by
  obtain ⟨n, rfl⟩ : ∃ n, room = n + 1 := ⟨room - 1, by omega⟩
  obtain ⟨H, h⟩ := dat_to_json_source P n (by omega) w
  exact ⟨_, _, h, converted_shows P w H⟩

/-- `main()`, and thus the file `scripts.py` as a program, does the same. -/
theorem C62_main (P : Platform) (room : Nat) (hr : 16 ≤ room) (w : World) :
    ∃ w' out, callIo P room n!"scripts" n!"main" [] w = (w', out) ∧ Shows P w w' out := by
  obtain ⟨n, rfl⟩ : ∃ n, room = n + 1 := ⟨room - 1, by omega⟩
  obtain ⟨H, h⟩ := main_source P n (by omega) w
  exact ⟨_, _, h, converted_shows P w H⟩

/-- The file names in the README. -/
def readmeSource : Path := "path/to/empires2_x2_p1.dat"
def readmeTarget : Path := "path/to/modded/empires2_x2_p1.dat"

/-- README, "Change cost of Loom to 69 Gold", executed from its text: what the model of C43 does, at every fault and crash. -/
theorem C62_readme_loom (P : Platform) (room : Nat) (hr : 23 ≤ room) (w : World) (hk : OfPackage w.heap) :
    ∃ H, runProgram P room module_loom program_loom w =
      ({ w with disk := (editFile changeLoom P.zlib P.env w.disk readmeSource readmeTarget).1, heap := H },
        (editFile changeLoom P.zlib P.env w.disk readmeSource readmeTarget).2) := loom_source P room hr w hk

/-- README, "Prevent Kings from garrisoning", executed from its text: what the model of C43 does, at every fault and crash. -/
theorem C62_readme_kings (P : Platform) (room : Nat) (hr : 23 ≤ room) (w : World) (hk : OfPackage w.heap) :
    ∃ H, runProgram P room module_kings program_kings w =
      ({ w with disk := (editFile changeKings P.zlib P.env w.disk readmeSource readmeTarget).1, heap := H },
        (editFile changeKings P.zlib P.env w.disk readmeSource readmeTarget).2) := kings_source P room hr w hk

/-- What the first program is for: run on a file with more than 22 techs, without faults, it ends normally; then the file at the new place loads as
the old data with 69 as the amount; its uncompressed content differs from that of a plain save in the two bytes of that amount only; all
other files are as before. -/
theorem C62_loom_costs_69 (P : Platform) (hz : P.zlib.Lawful) (hf : P.env.fault = none) (room : Nat) (hr : 23 ≤ room) (w : World) (hk : OfPackage w.heap)
    (d : DatFile) (hp : DatFile.parse P.zlib w.disk readmeSource = .returned d) (ht : 22 < d.techs.length) :
    ∃ w' offset bs bs', runProgram P room module_loom program_loom w = (w', .returned ()) ∧ w'.printed = w.printed ∧
      (∀ q, q ≠ readmeTarget → w'.disk q = w.disk q) ∧
      DatFile.parse P.zlib w'.disk readmeTarget = .returned (d.setTechCost 22 0 69) ∧
      DatFile.toBytes d = .ok bs ∧ w'.disk readmeTarget = some (P.zlib.compress bs') ∧ SameExceptAt offset 2 bs bs' ∧ (bs'.drop offset).take 2 = [69, 0] := by
  obtain ⟨fs', offset, bs, bs', h1, h2, h3, h4, h5, h6, h7⟩ := (C43_loom_program P.zlib hz P.env hf w.disk readmeSource readmeTarget d hp).2 ht
  obtain ⟨H, h⟩ := C62_readme_loom P room hr w hk
  rw [h1] at h
  exact ⟨_, offset, bs, bs', h, rfl, h2, h3, h4, h5, h6, h7⟩

/-- What the second program is for: run without faults on a file in which unit 434 of every civ has a task, it ends normally; then the file at
the new place loads as the old data without the last task of these units; its uncompressed content is shorter by one task per civ; all other
files are as before. -/
theorem C62_kings_lose_a_task (P : Platform) (hz : P.zlib.Lawful) (hf : P.env.fault = none) (room : Nat) (hr : 23 ≤ room) (w : World) (hk : OfPackage w.heap)
    (v : Version) (d : DatFile) (hp : DatFile.parse P.zlib w.disk readmeSource = .returned d) (hv : d.version = v.value)
    (ht : ∀ c ∈ d.civs, kingProblem c = none) :
    ∃ w' bs bs', runProgram P room module_kings program_kings w = (w', .returned ()) ∧ w'.printed = w.printed ∧
      (∀ q, q ≠ readmeTarget → w'.disk q = w.disk q) ∧
      DatFile.parse P.zlib w'.disk readmeTarget = .returned (d.popTasks 434) ∧
      DatFile.toBytes d = .ok bs ∧ w'.disk readmeTarget = some (P.zlib.compress bs') ∧ bs'.length + d.civs.length * taskSize v = bs.length := by
  obtain ⟨fs', bs, bs', h1, h2, h3, h4, h5, h6⟩ := (C43_king_program P.zlib hz P.env hf w.disk readmeSource readmeTarget v d hp hv).2 ht
  obtain ⟨H, h⟩ := C62_readme_kings P room hr w hk
  rw [h1] at h
  exact ⟨_, bs, bs', h, rfl, h2, h3, h4, h5, h6⟩

/-- And if they cannot do it — there are less than 23 techs; a civ has no unit 434, or one that cannot have tasks, or none left — they end with the
exception of C43 and the disk is as before. -/
theorem C62_readme_fails (P : Platform) (room : Nat) (hr : 23 ≤ room) (w : World) (hk : OfPackage w.heap) (d : DatFile)
    (hp : DatFile.parse P.zlib w.disk readmeSource = .returned d) :
    (d.techs.length ≤ 22 → ∃ w', runProgram P room module_loom program_loom w = (w', .raised .indexError) ∧ w'.disk = w.disk) ∧
    (∀ e, d.civs.findSome? kingProblem = some e → ∃ w', runProgram P room module_kings program_kings w = (w', .raised e) ∧ w'.disk = w.disk) := by
  obtain ⟨v, hd⟩ := parse_wf hp
  constructor
  · intro h
    obtain ⟨H, h1⟩ := C62_readme_loom P room hr w hk
    rw [C43_raises_untouched _ P.zlib P.env w.disk readmeSource readmeTarget _ (.inr ⟨d, hp, .inl ((C43_loom_edit v d hd).1 h)⟩)] at h1
    exact ⟨_, h1, rfl⟩
  · intro e h
    obtain ⟨H, h1⟩ := C62_readme_kings P room hr w hk
    rw [C43_raises_untouched _ P.zlib P.env w.disk readmeSource readmeTarget _ (.inr ⟨d, hp, .inl ((C43_king_edit d).1 e h)⟩)] at h1
    exact ⟨_, h1, rfl⟩

/-! ## non-vacuity -/

/-- A platform, and a world at the start of a program, with one file. -/
def Sample.platform (args : Py (List String)) : Platform where
  zlib := Zlib.toy
  env := { split := fun bs => [bs], split_join := fun bs => by simp, fault := none }
  arguments := fun _ => args
  digits := Json.toyRepr0

/-- The start of a program. -/
def Sample.start (fs : FileSystem) : World := { disk := fs, heap := [], printed := [], positionals := [] }

/-- The README programs have files to work on; both run to their end there, from the start of a program (no objects yet). -/
example (v : Version) (hv : v ≠ .UNDEFINED) : ∃ fs w1 w2,
    runProgram (Sample.platform (.ok [])) 23 module_loom program_loom (Sample.start fs) = (w1, .returned ()) ∧
    runProgram (Sample.platform (.ok [])) 23 module_kings program_kings (Sample.start fs) = (w2, .returned ()) ∧
    DatFile.parse Zlib.toy w1.disk readmeTarget = .returned ((Genie.Sample.modFile v (some (Genie.Sample.archer v))).setTechCost 22 0 69) := by
  obtain ⟨bs, h⟩ := Genie.Sample.disk_parse Zlib.toy Zlib.toy_lawful readmeSource _
    ⟨v, Genie.Sample.modFile_wf v hv (some (Genie.Sample.archer v)) fun u hu => by cases hu; exact Genie.Sample.archer_wf v hv⟩
  have hk : OfPackage (Sample.start (Genie.Sample.disk Zlib.toy readmeSource bs)).heap := fun a c attrs h => by cases h
  obtain ⟨w1, _, _, _, h1, _, _, h1', _⟩ := C62_loom_costs_69 (Sample.platform (.ok [])) Zlib.toy_lawful rfl 23 (Nat.le_refl _) (Sample.start _) hk _ h
    (by decide : 22 < (List.replicate 23 Genie.Sample.tech).length)
  obtain ⟨w2, _, _, h2, _⟩ := C62_kings_lose_a_task (Sample.platform (.ok [])) Zlib.toy_lawful rfl 23 (Nat.le_refl _) (Sample.start _) hk v _ h rfl
    (fun c hc => by obtain ⟨c', hc', rfl⟩ := List.mem_map.1 hc; rfl)
  exact ⟨_, w1, w2, h1, h2, h1'⟩

/-- `dat-to-json in.dat` prints something, `dat-to-json` without a file that exists fails. -/
example (v : Version) (hv : v ≠ .UNDEFINED) : ∃ fs w1 w2,
    callIo (Sample.platform (.ok ["in.dat"])) 15 n!"scripts" n!"dat_to_json" [] (Sample.start fs) = (w1, .returned (.p (.h .none))) ∧
    w1.printed = Json.dumps Json.toyRepr0 (Genie.Sample.datFile v).tree ++ [10] ∧
    callIo (Sample.platform (.ok ["no.dat"])) 15 n!"scripts" n!"dat_to_json" [] (Sample.start fs) = (w2, .raised .osError) ∧ w2.printed = [] := by
  obtain ⟨bs, h⟩ := Genie.Sample.disk_parse Zlib.toy Zlib.toy_lawful "in.dat" _ ⟨v, Genie.Sample.datFile_wf v hv⟩
  obtain ⟨w1, o1, e1, s1⟩ := C62_dat_to_json (Sample.platform (.ok ["in.dat"])) 15 (Nat.le_refl _) (Sample.start (Genie.Sample.disk Zlib.toy "in.dat" bs))
  obtain ⟨w2, o2, e2, s2⟩ := C62_dat_to_json (Sample.platform (.ok ["no.dat"])) 15 (Nat.le_refl _) (Sample.start (Genie.Sample.disk Zlib.toy "in.dat" bs))
  obtain ⟨rfl, p1⟩ := s1.prints "in.dat" [] _ rfl h
  obtain ⟨rfl, p2⟩ := s2.fails "no.dat" [] .osError rfl (by
    show DatFile.parse Zlib.toy (Genie.Sample.disk Zlib.toy "in.dat" bs) "no.dat" = _
    unfold DatFile.parse
    rw [show Genie.Sample.disk Zlib.toy "in.dat" bs "no.dat" = none from if_neg (by decide)])
  exact ⟨_, w1, w2, e1, p1, e2, p2⟩

end Genie.Src
