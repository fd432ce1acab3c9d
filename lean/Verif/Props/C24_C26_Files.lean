import Verif.Model.Io
import Verif.Props.C11_C15_RoundTrip
/-!
# C24 – C26: files

`DatFile.save`, `DatFile.parse` and the file-system model are in `Verif/Model/Io.lean`.  zlib is any pair of functions
with the stated laws, the environment decides how writes are split and whether and when the process crashes or an
operation fails.
-/

namespace Genie

/-! ## helper lemmas -/

theorem runOps_append (p : Path) (fs : FileSystem) (old : Bytes) (h : fs p = some old) (cs : List Bytes) :
    runOps fs (cs.map (.append p)) = fun q => if q = p then some (old ++ cs.flatten) else fs q := by
  induction cs generalizing fs old with
  | nil => funext q; by_cases hq : q = p <;> simp [runOps, hq, h]
  | cons c cs ih =>
    have := ih (FsOp.run fs (.append p c)) (old ++ c) (by simp [FsOp.run, h])
    simp only [runOps, List.map_cons, List.foldl_cons] at this ⊢
    rw [this]
    funext q
    by_cases hq : q = p <;> simp [hq, FsOp.run]

theorem runOps_writeOps (env : Environment) (p : Path) (fs : FileSystem) (data : Bytes) (k : Nat) :
    (k = 0 ∧ runOps fs ((writeOps env p data).take k) = fs) ∨
    (0 < k ∧ runOps fs ((writeOps env p data).take k) =
      fun q => if q = p then some ((env.split data).take (k - 1)).flatten else fs q) := by
  cases k with
  | zero => left; simp [runOps]
  | succ k =>
    right
    refine ⟨by omega, ?_⟩
    have := runOps_append p (FsOp.run fs (.openTruncate p)) [] (by simp [FsOp.run]) ((env.split data).take k)
    simp only [writeOps, List.take_succ_cons, ← List.map_take, Nat.add_sub_cancel]
    simp only [runOps, List.foldl_cons] at this ⊢
    rw [this]
    funext q
    by_cases hq : q = p <;> simp [hq, FsOp.run]

theorem runOps_all (env : Environment) (p : Path) (fs : FileSystem) (data : Bytes) :
    runOps fs (writeOps env p data) = fun q => if q = p then some data else fs q := by
  have := runOps_append p (FsOp.run fs (.openTruncate p)) [] (by simp [FsOp.run]) (env.split data)
  simp only [writeOps]
  simp only [runOps, List.foldl_cons] at this ⊢
  rw [this]
  funext q
  by_cases hq : q = p <;> simp [hq, FsOp.run, env.split_join]

theorem take_flatten_prefix (cs : List Bytes) (k : Nat) : (cs.take k).flatten <+: cs.flatten := by
  conv => rhs; rw [← List.take_append_drop k cs, List.flatten_append]
  exact List.prefix_append _ _

theorem parse_data (z : Zlib) (fs : FileSystem) (p : Path) (content data : Bytes) (d : DatFile) (h : fs p = some content)
    (hz : z.decompress content = some data) (hd : DatFile.ofData data = .ok d) :
    DatFile.parse z fs p = .returned d := by
  simp [DatFile.parse, h, hz, hd]

theorem ofData_toBytes (d : DatFile) (hd : DatFile.WF d) (bs : Bytes) (h : DatFile.toBytes d = .ok bs) :
    DatFile.ofData bs = .ok d := by
  obtain ⟨bs', h1, h2⟩ := C12_datfile_round_trip_file d hd
  rw [h] at h1
  simp only [Except.ok.injEq] at h1
  subst h1
  obtain ⟨h', h3, -⟩ := h2 []
  rw [List.append_nil] at h3
  simp [DatFile.ofData, h3]

/-! ## C24 -/

/-- Saving a well-formed object when nothing goes wrong returns normally; loading the file gives an equal object; all other
files are untouched. -/
theorem C24_save_then_parse (z : Zlib) (hz : z.Lawful) (env : Environment) (hf : env.fault = none) (fs : FileSystem)
    (d : DatFile) (hd : DatFile.WF d) (p : Path) :
    ∃ fs', DatFile.save z env fs d p = (fs', .returned ()) ∧ DatFile.parse z fs' p = .returned d ∧
      ∀ q, q ≠ p → fs' q = fs q := by
  obtain ⟨bs, h1, -⟩ := C12_datfile_round_trip_file d hd
  refine ⟨runOps fs (writeOps env p (z.compress bs)), by simp only [DatFile.save, h1, writeBytes, hf], ?_, ?_⟩
  · rw [runOps_all]
    refine parse_data z _ p (z.compress bs) bs d (by simp) ?_ (ofData_toBytes d hd bs h1)
    simpa using hz.inverse bs []
  · intro q hq; rw [runOps_all]; simp [hq]

/-- What was loaded can be saved under any name and loads again as the same object. -/
theorem C24_parse_save_parse (z : Zlib) (hz : z.Lawful) (env : Environment) (hf : env.fault = none) (fs : FileSystem)
    (src dst : Path) (d : DatFile) (h : DatFile.parse z fs src = .returned d) :
    ∃ fs', DatFile.save z env fs d dst = (fs', .returned ()) ∧ DatFile.parse z fs' dst = .returned d := by
  have hd : DatFile.WF d := by
    unfold DatFile.parse DatFile.ofData at h
    repeat' split at h
    all_goals try cases h
    rename_i hr
    repeat' split at hr
    all_goals try cases hr
    rename_i hr
    exact ⟨_, C13_parsed_wellformed _ _ _ hr⟩
  obtain ⟨fs', h1, h2, -⟩ := C24_save_then_parse z hz env hf fs d hd dst
  exact ⟨fs', h1, h2⟩

/-- Bytes appended to a saved file are ignored by a load. -/
theorem C24_trailing_bytes (z : Zlib) (hz : z.Lawful) (fs : FileSystem) (d : DatFile) (hd : DatFile.WF d) (bs rest : Bytes)
    (hb : DatFile.toBytes d = .ok bs) (p : Path) (hp : fs p = some (z.compress bs ++ rest)) :
    DatFile.parse z fs p = .returned d :=
  parse_data z _ p _ bs d hp (hz.inverse bs rest) (ofData_toBytes d hd bs hb)

/-- What `parse` does with any file: `OSError` if it is not there, `zlib.error` if it is not a raw deflate stream, and otherwise what the
reader says about the inflated bytes. -/
theorem C24_parse_outcome (z : Zlib) (fs : FileSystem) (p : Path) :
    (fs p = none → DatFile.parse z fs p = .raised .osError) ∧
    (∀ content, fs p = some content → z.decompress content = none → DatFile.parse z fs p = .raised .zlibError) ∧
    (∀ content data e, fs p = some content → z.decompress content = some data → DatFile.fromBytes (ByteHandler.new data) = .error e →
      DatFile.parse z fs p = .raised e) ∧
    (∀ content data d h', fs p = some content → z.decompress content = some data →
      DatFile.fromBytes (ByteHandler.new data) = .ok (d, h') → DatFile.parse z fs p = .returned d) := by
  unfold DatFile.parse DatFile.ofData
  refine ⟨fun h => by rw [h], fun c h h1 => by rw [h]; dsimp only; rw [h1], fun c b e h h1 h2 => ?_, fun c b d h' h h1 h2 => ?_⟩
  · rw [h]; dsimp only; rw [h1]; dsimp only; rw [h2]
  · rw [h]; dsimp only; rw [h1]; dsimp only; rw [h2]

/-! ## C25 -/

/-- If the object cannot be encoded, `save` raises that exception and changes nothing, whatever the environment. -/
theorem C25_failed_encode_untouched (z : Zlib) (env : Environment) (fs : FileSystem) (d : DatFile) (e : PyErr)
    (h : DatFile.toBytes d = .error e) (p : Path) : DatFile.save z env fs d p = (fs, .raised e) := by
  simp [DatFile.save, h]

/-- Such objects exist: an unknown version. -/
example : ∃ d, DatFile.toBytes d = .error .valueError :=
  ⟨{ Sample.datFile .VER_88 with version := [] }, rfl⟩

/-! ## C26 -/

/-- After a `save` that was interrupted anywhere (crash or `OSError`), the target holds its old content (only if not even
the opening took place), or a prefix of the new compressed data; all other files are untouched. -/
theorem C26_interrupted_target (z : Zlib) (env : Environment) (fs : FileSystem) (d : DatFile) (p : Path) (bs : Bytes)
    (hb : DatFile.toBytes d = .ok bs) (k : Nat) (crash : Bool) (hf : env.fault = some (k, crash)) :
    let fs' := (DatFile.save z env fs d p).1
    ((k = 0 ∧ fs' p = fs p) ∨ (0 < k ∧ ∃ part, part <+: z.compress bs ∧ fs' p = some part)) ∧
      ∀ q, q ≠ p → fs' q = fs q := by
  simp only [DatFile.save, hb, writeBytes, hf]
  rcases runOps_writeOps env p fs (z.compress bs) k with ⟨h1, h2⟩ | ⟨h1, h2⟩
  · rw [h2]; exact ⟨Or.inl ⟨h1, rfl⟩, fun _ _ => rfl⟩
  · rw [h2]
    refine ⟨Or.inr ⟨h1, ((env.split (z.compress bs)).take (k - 1)).flatten, ?_, by simp⟩, fun q hq => by simp [hq]⟩
    have := take_flatten_prefix (env.split (z.compress bs)) (k - 1)
    rwa [env.split_join] at this

/-- `save` returns normally only if the target holds the complete new data. -/
theorem C26_returned_complete (z : Zlib) (env : Environment) (fs fs' : FileSystem) (d : DatFile) (p : Path)
    (h : DatFile.save z env fs d p = (fs', .returned ())) :
    ∃ bs, DatFile.toBytes d = .ok bs ∧ fs' p = some (z.compress bs) := by
  unfold DatFile.save at h
  split at h
  · simp at h
  · rename_i bs hb
    refine ⟨bs, hb, ?_⟩
    unfold writeBytes at h
    split at h
    · simp only [Prod.mk.injEq, and_true] at h
      rw [← h, runOps_all]; simp
    · rename_i k crash hf
      simp only [Prod.mk.injEq] at h
      obtain ⟨-, h⟩ := h
      split at h <;> cases h

/-- `save` is not atomic: once the file has been opened, the old content is gone, even if nothing has been written yet. -/
theorem C26_not_atomic (z : Zlib) (env : Environment) (fs : FileSystem) (d : DatFile) (p : Path) (bs : Bytes)
    (hb : DatFile.toBytes d = .ok bs) (crash : Bool) (hf : env.fault = some (1, crash)) :
    (DatFile.save z env fs d p).1 p = some [] := by
  simp only [DatFile.save, hb, writeBytes, hf]
  rcases runOps_writeOps env p fs (z.compress bs) 1 with ⟨h1, h2⟩ | ⟨h1, h2⟩
  · omega
  · rw [h2]; simp

/-- Loading the target of an interrupted save never gives a wrong object: it behaves as before the save, or raises
`zlib.error`, or (if all data had been written) gives the object saved. -/
theorem C26_interrupted_load (z : Zlib) (hz : z.Lawful) (env : Environment) (fs : FileSystem) (d : DatFile)
    (hd : DatFile.WF d) (p : Path) :
    let fs' := (DatFile.save z env fs d p).1
    DatFile.parse z fs' p = DatFile.parse z fs p ∨ DatFile.parse z fs' p = .raised .zlibError ∨
      DatFile.parse z fs' p = .returned d := by
  obtain ⟨bs, hb, -⟩ := C12_datfile_round_trip_file d hd
  intro fs'
  cases hf : env.fault with
  | none =>
    right; right
    obtain ⟨fs2, h1, h2, -⟩ := C24_save_then_parse z hz env hf fs d hd p
    simpa [fs', h1] using h2
  | some kc =>
    obtain ⟨k, crash⟩ := kc
    obtain ⟨h1, -⟩ := C26_interrupted_target z env fs d p bs hb k crash hf
    rcases h1 with ⟨-, h1⟩ | ⟨-, part, h2, h3⟩
    · left
      simp only [DatFile.parse, fs', h1]
    · right
      by_cases hc : part = z.compress bs
      · right
        refine parse_data z _ p _ bs d h3 ?_ (ofData_toBytes d hd bs hb)
        rw [hc]; simpa using hz.inverse bs []
      · left
        simp only [DatFile.parse, fs', h3, hz.truncated bs part h2 hc]

/-! ## the hypotheses can be met -/

/-- A toy compressor with the assumed laws: `1 x` for a byte `x`, `0` at the end. -/
def Zlib.toy : Zlib where
  compress bs := bs.flatMap (fun x => [1, x]) ++ [0]
  decompress := go
where go : Bytes → Option Bytes
  | [] => none
  | [c] => if c = 0 then some [] else none
  | c :: x :: r => if c = 0 then some [] else (go r).map (x :: ·)

theorem Zlib.toy_lawful : Zlib.toy.Lawful where
  inverse := by
    intro data rest
    induction data with
    | nil => cases rest <;> rfl
    | cons x xs ih =>
      have : Zlib.toy.compress (x :: xs) ++ rest = 1 :: x :: (Zlib.toy.compress xs ++ rest) := rfl
      rw [this]
      show Zlib.toy.go _ = _
      rw [Zlib.toy.go]
      have ih' : Zlib.toy.go (Zlib.toy.compress xs ++ rest) = some xs := ih
      simp [ih']
  truncated := by
    intro data
    induction data with
    | nil =>
      intro p hp hne
      have : Zlib.toy.compress [] = [0] := rfl
      rw [this] at hp hne
      cases p with
      | nil => rfl
      | cons a p =>
        obtain ⟨t, ht⟩ := hp
        simp only [List.cons_append, List.cons.injEq, List.append_eq_nil_iff] at ht
        exact absurd (by rw [ht.1, ht.2.1]) hne
    | cons x xs ih =>
      intro p hp hne
      have e : Zlib.toy.compress (x :: xs) = 1 :: x :: Zlib.toy.compress xs := rfl
      rw [e] at hp hne
      cases p with
      | nil => rfl
      | cons a p =>
        cases p with
        | nil =>
          obtain ⟨t, ht⟩ := hp
          simp only [List.cons_append, List.cons.injEq] at ht
          rw [ht.1]; rfl
        | cons b p =>
          obtain ⟨t, ht⟩ := hp
          simp only [List.cons_append, List.cons.injEq] at ht
          obtain ⟨rfl, rfl, ht⟩ := ht
          have := ih p ⟨t, ht⟩ (fun h => hne (by rw [h]))
          show Zlib.toy.go _ = _
          rw [Zlib.toy.go]
          have h2 : Zlib.toy.go p = none := this
          simp [h2]

/-- An environment that writes byte by byte and crashes after `k` operations. -/
def Environment.byteWise (fault : Option (Nat × Bool)) : Environment where
  split bs := bs.map (fun x => [x])
  split_join := by intro bs; induction bs with
    | nil => rfl
    | cons x xs ih => simp [ih]
  fault := fault

/-- All hypotheses of the theorems of this file hold together in concrete cases. -/
example : Zlib.toy.Lawful ∧ DatFile.WF (Sample.datFile .VER_84) ∧ (Environment.byteWise (some (7, true))).fault = some (7, true) ∧
    (Environment.byteWise none).fault = none :=
  ⟨Zlib.toy_lawful, ⟨_, Sample.datFile_wf .VER_84 (by decide)⟩, rfl, rfl⟩

end Genie
