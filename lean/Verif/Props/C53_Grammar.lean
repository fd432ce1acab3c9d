import Verif.Props.C15_Pieces
import Verif.Proof.ClassesTakes
/-!
# C53: the reader accepts exactly the grammar

`Spec/Versioned.lean` and `Spec/Layout.lean` describe the well-formed objects and, item by item, the file format;
`Spec/Pieces.lean` lists for every item the bytes that are accepted for it.  Together they are a grammar.  A parse that stays
within the data succeeds exactly on the bytes of this grammar, it returns the object that the grammar assigns to them, and it
stops where the grammar ends.  So a change that makes the reader reject an accepted file, accept another one, or read it as
another object is excluded.

`C53_total` and `C53_record_total` are the same without restriction to the data: they characterise every successful read, also
where it runs past the end.  What stands for the missing bytes is said in `Spec/CutPieces.lean`.
-/

namespace Genie

/-- Reading succeeds with the object `d`, `n` bytes further, exactly if `d` is well-formed and its items are taken from the data
from here on, the last of them possibly completed. -/
theorem C53_total (h : ByteHandler) (d : DatFile) (n : Nat) :
    (∃ h', DatFile.fromBytes h = .ok (d, h') ∧ h'.offset = h.offset + n) ↔
      d.WF ∧ TakenAs d.layout (h.content.drop h.offset) n := by
  constructor
  · rintro ⟨h', hr, ho⟩
    obtain ⟨h1, h2, h3⟩ := DatFile.taken hr
    rw [ho, Nat.add_sub_cancel_left] at h3
    exact ⟨⟨_, C13_parsed_wellformed _ _ _ hr⟩, by rw [DatFile.layout_eq_layoutAt h1]; exact h3⟩
  · rintro ⟨⟨v, hd⟩, hr⟩
    rw [DatFile.layout_eq_layoutAt hd.version] at hr
    obtain ⟨f, e⟩ := DatFile.takes hd hr h rfl
    exact ⟨_, e, rfl⟩

/-- The same for every record class, at the version of the reading handler. -/
theorem C53_record_total (c : RecordClass) (h : ByteHandler) (x : c.Obj) (n : Nat) :
    (∃ h', c.fromBytes h = .ok (x, h') ∧ h'.offset = h.offset + n) ↔
      c.WF h.version x ∧ TakenAs (c.layout h.version x) (h.content.drop h.offset) n := by
  constructor
  · rintro ⟨h', hr, ho⟩
    obtain ⟨h2, h3⟩ := (c.lax h.version).taken rfl hr
    rw [ho, Nat.add_sub_cancel_left] at h3
    obtain ⟨k, l, e, st⟩ := (c.good h.version).ok rfl hr
    exact ⟨st.post, h3⟩
  · rintro ⟨hd, hr⟩
    obtain ⟨a, f, rfl, e⟩ := c.takes hd _ _ hr h rfl rfl
    exact ⟨_, e, rfl⟩

/-- Reading raises exactly if no items of a well-formed object can be taken from the data. -/
theorem C53_raises (h : ByteHandler) :
    (∃ e, DatFile.fromBytes h = .error e) ↔ ∀ (d : DatFile) (n : Nat), d.WF → ¬ TakenAs d.layout (h.content.drop h.offset) n := by
  constructor
  · rintro ⟨e, hr⟩ d n hd ht
    obtain ⟨h', r, -⟩ := (C53_total h d n).2 ⟨hd, ht⟩
    rw [hr] at r; cases r
  · intro hn
    cases hr : DatFile.fromBytes h with
    | error e => exact ⟨e, rfl⟩
    | ok q =>
      obtain ⟨d, h'⟩ := q
      have hm := DatFile.taken hr
      obtain ⟨hd, ht⟩ := (C53_total h d (h'.offset - h.offset)).1 ⟨h', hr, by have := hm.2.1; omega⟩
      exact absurd ht (hn d _ hd)

theorem C53_record_raises (c : RecordClass) (h : ByteHandler) :
    (∃ e, c.fromBytes h = .error e) ↔
      ∀ (x : c.Obj) (n : Nat), c.WF h.version x → ¬ TakenAs (c.layout h.version x) (h.content.drop h.offset) n := by
  constructor
  · rintro ⟨e, hr⟩ d n hd ht
    obtain ⟨h', r, -⟩ := (C53_record_total c h d n).2 ⟨hd, ht⟩
    rw [hr] at r; cases r
  · intro hn
    cases hr : c.fromBytes h with
    | error e => exact ⟨e, rfl⟩
    | ok q =>
      obtain ⟨d, h'⟩ := q
      have hm := (c.lax h.version).taken rfl hr
      obtain ⟨hd, ht⟩ := (C53_record_total c h d (h'.offset - h.offset)).1 ⟨h', hr, by have := hm.1; omega⟩
      exact absurd ht (hn d _ hd)

/-- Reading succeeds with the object `d`, within the data and `n` bytes further, exactly if `d` is well-formed and the next `n`
bytes are accepted for the items of `d`. -/
theorem C53_file_grammar (h : ByteHandler) (d : DatFile) (n : Nat) :
    (∃ h', DatFile.fromBytes h = .ok (d, h') ∧ Within h' ∧ h'.offset = h.offset + n) ↔
      d.WF ∧ h.offset + n ≤ h.content.length ∧ ReadAs d.layout ((h.content.drop h.offset).take n) := by
  constructor
  · rintro ⟨h', hr, hw, ho⟩
    have h2 := C15_file_items _ _ _ hr hw
    have hc : h'.content = h.content := by
      obtain ⟨_, _, _, rfl, _⟩ := DatFile.goodFile.ok hr
      rfl
    refine ⟨⟨_, C13_parsed_wellformed _ _ _ hr⟩, ?_, ?_⟩
    · unfold Within at hw; rw [hc] at hw; omega
    · simpa [consumed, ho] using h2
  · rintro ⟨⟨v, hd⟩, hn, hr⟩
    rw [DatFile.layout_eq_layoutAt hd.version] at hr
    have hl : ((h.content.drop h.offset).take n).length = n := by
      rw [List.length_take, List.length_drop]; omega
    obtain ⟨f, e⟩ := DatFile.takes hd (hr.taken (List.take_prefix _ _)) h rfl
    rw [hl] at e
    exact ⟨_, e, hn, rfl⟩

/-- The same for every record class, at the version of the reading handler. -/
theorem C53_record_grammar (c : RecordClass) (h : ByteHandler) (x : c.Obj) (n : Nat) :
    (∃ h', c.fromBytes h = .ok (x, h') ∧ Within h' ∧ h'.offset = h.offset + n) ↔
      c.WF h.version x ∧ h.offset + n ≤ h.content.length ∧ ReadAs (c.layout h.version x) ((h.content.drop h.offset).take n) := by
  constructor
  · rintro ⟨h', hr, hw, ho⟩
    have h2 := C15_record_items c _ _ _ hr hw
    obtain ⟨k, l, e, st⟩ := (c.good h.version).ok rfl hr
    have hc : h'.content = h.content := by rw [e]
    refine ⟨st.post, ?_, ?_⟩
    · unfold Within at hw; rw [hc] at hw; omega
    · simpa [consumed, ho] using h2
  · rintro ⟨hd, hn, hr⟩
    have hl : ((h.content.drop h.offset).take n).length = n := by
      rw [List.length_take, List.length_drop]; omega
    obtain ⟨a, f, rfl, e⟩ := c.takes hd _ _ (hr.taken (List.take_prefix _ _)) h rfl rfl
    rw [hl] at e
    exact ⟨_, e, hn, rfl⟩

/-- A file as a whole: `DatFile.from_bytes` of the whole contents. -/
theorem C53_whole_file (bs : Bytes) (d : DatFile) :
    (∃ h', DatFile.fromBytes (ByteHandler.new bs) = .ok (d, h') ∧ h'.offset = bs.length) ↔ d.WF ∧ ReadAs d.layout bs := by
  have := C53_file_grammar (ByteHandler.new bs) d bs.length
  have e1 : (ByteHandler.new bs).offset = 0 := rfl
  have e2 : (ByteHandler.new bs).content = bs := rfl
  rw [e1, e2, Nat.zero_add, List.drop_zero, List.take_length] at this
  rw [show (d.WF ∧ ReadAs d.layout bs) ↔ (d.WF ∧ bs.length ≤ bs.length ∧ ReadAs d.layout bs) by simp, ← this]
  constructor
  · rintro ⟨h', hr, ho⟩
    refine ⟨h', hr, ?_, ho⟩
    obtain ⟨_, _, _, rfl, _⟩ := DatFile.goodFile.ok hr
    unfold Within; rw [ho]; exact Nat.le_refl _
  · rintro ⟨h', hr, -, ho⟩
    exact ⟨h', hr, ho⟩

/-- The grammar is unambiguous and prefix-free: at most one object, and one length, is accepted at the beginning of a file. -/
theorem C53_unambiguous (d d' : DatFile) (hd : d.WF) (hd' : d'.WF) (bs bs' rest rest' : Bytes) (h : ReadAs d.layout bs)
    (h' : ReadAs d'.layout bs') (he : bs ++ rest = bs' ++ rest') : d = d' ∧ bs = bs' := by
  obtain ⟨h1, r1, -, o1⟩ := (C53_file_grammar (ByteHandler.new (bs ++ rest)) d bs.length).2
    ⟨hd, by simp [ByteHandler.new], by simpa [ByteHandler.new] using h⟩
  obtain ⟨h2, r2, -, o2⟩ := (C53_file_grammar (ByteHandler.new (bs ++ rest)) d' bs'.length).2
    ⟨hd', by simp [ByteHandler.new, he], by simpa [ByteHandler.new, he] using h'⟩
  rw [r1] at r2
  have e := Except.ok.inj r2
  refine ⟨congrArg Prod.fst e, ?_⟩
  have : h1 = h2 := congrArg Prod.snd e
  rw [this, o2] at o1
  exact (List.append_inj he (by omega)).1

/-- Two files are read as the same object exactly if they are two spellings of it: in particular every spelling of an object
that was saved is read as that object. -/
theorem C53_same_object (d : DatFile) (hd : d.WF) (bs : Bytes) (h : ReadAs d.layout bs) :
    ∃ ws h' h'', DatFile.toBytes d = .ok ws ∧ DatFile.fromBytes (ByteHandler.new bs) = .ok (d, h') ∧
      DatFile.fromBytes (ByteHandler.new ws) = .ok (d, h'') ∧ h'.offset = bs.length ∧ h''.offset = ws.length := by
  obtain ⟨h', r', o'⟩ := (C53_whole_file bs d).2 ⟨hd, h⟩
  obtain ⟨v, hv⟩ := hd
  obtain ⟨ws, e1, e2⟩ := DatFile.reads hv
  refine ⟨ws, h', _, e1, r', e2 (ByteHandler.new ws) (by simp [ByteHandler.new]), o', by simp [ByteHandler.new]⟩

/-- The bytes that are written for the items are accepted for them. -/
theorem ReadAs.self (its : List Item) : ReadAs its (layoutBytes its) := by
  induction its with
  | nil => exact ReadAs.nil
  | cons i is ih => exact (ReadAs.item (i := i) (bs := i.bytes) (.inl rfl)).append ih

/-- Every oddity is accepted wherever it stands: writing an odd chunk in place of any item gives a file that is read as the same
object. -/
theorem C53_every_oddity_is_read (d : DatFile) (hd : d.WF) (a b : List Item) (it : Item) (c : Bytes) (hl : d.layout = a ++ it :: b)
    (ho : it.Odd c) :
    ∃ h', DatFile.fromBytes (ByteHandler.new (layoutBytes a ++ (c ++ layoutBytes b))) = .ok (d, h') ∧
      h'.offset = (layoutBytes a ++ (c ++ layoutBytes b)).length ∧
      DatFile.toBytes d = .ok (layoutBytes a ++ (it.bytes ++ layoutBytes b)) ∧ c ≠ it.bytes := by
  obtain ⟨h', r, o⟩ := (C53_whole_file (layoutBytes a ++ (c ++ layoutBytes b)) d).2 ⟨hd, by
    rw [hl]
    exact (ReadAs.self a).append ((ReadAs.item (i := it) (bs := c) (.inr ho)).append (ReadAs.self b))⟩
  refine ⟨h', r, o, ?_, by simpa using ho.ne (x := []) (y := [])⟩
  obtain ⟨v, hv⟩ := hd
  obtain ⟨ws, e, -⟩ := DatFile.reads hv
  rw [e, ((DatFile.writes d).ok _ e).2, hl]
  simp [layoutBytes]

/-- A reader fails, or runs past the end of the data, exactly if the data does not begin with bytes of the grammar. -/
theorem C53_rejects (h : ByteHandler) :
    (¬ ∃ d h', DatFile.fromBytes h = .ok (d, h') ∧ Within h') ↔
      ∀ d : DatFile, ∀ bs, d.WF → ReadAs d.layout bs → ¬ (h.offset ≤ h.content.length ∧ bs <+: h.content.drop h.offset) := by
  constructor
  · rintro hn d bs hd hb ⟨ho, hp⟩
    have hl := hp.length_le
    rw [List.length_drop] at hl
    have ht : (h.content.drop h.offset).take bs.length = bs := (List.prefix_iff_eq_take.1 hp).symm
    obtain ⟨h', r, w, -⟩ := (C53_file_grammar h d bs.length).2 ⟨hd, by omega, by rw [ht]; exact hb⟩
    exact hn ⟨d, h', r, w⟩
  · rintro hn ⟨d, h', r, w⟩
    obtain ⟨n, l, v, rfl, st⟩ := DatFile.goodFile.ok r
    obtain ⟨hd, hl, hb⟩ := (C53_file_grammar h d n).1 ⟨_, r, w, rfl⟩
    exact hn d _ hd hb ⟨by omega, List.take_prefix _ _⟩

/-! ## not vacuous -/

-- an effect with one command that ends in the middle of the number of commands: 60 0A 01 00 41 | FF: a negative count, no commands
example : ∃ h', RecordClass.Effect.fromBytes { ByteHandler.new [0x60, 0x0A, 1, 0, 65, 255] with version := .VER_88 } =
    .ok ((⟨[65], []⟩ : Effect), h') ∧ h'.offset = 0 + 7 :=
  (C53_record_total .Effect _ _ 7).2 ⟨⟨by decide +kernel, by decide, nofun⟩,
    [0x60, 0x0A, 1, 0, 65], 2, ⟨.inl (by decide), .inl (by decide)⟩,
    ⟨[255, 255], 0, ⟨.inr ⟨rfl, by decide⟩, .inr ⟨rfl, 1, by decide, by decide⟩⟩, rfl, rfl⟩, rfl⟩
-- a float does not exist beyond the end
example : ∃ e, RecordClass.EffectCommand.fromBytes { ByteHandler.new [1, 2, 0, 3, 0, 4, 0, 0, 0, 0] with version := .VER_88 } = .error e := by
  have : errorOf (RecordClass.EffectCommand.fromBytes { ByteHandler.new [1, 2, 0, 3, 0, 4, 0, 0, 0, 0] with version := .VER_88 }) ≠ none := by
    decide +kernel
  cases h : RecordClass.EffectCommand.fromBytes { ByteHandler.new [1, 2, 0, 3, 0, 4, 0, 0, 0, 0] with version := .VER_88 } with
  | error e => exact ⟨e, rfl⟩
  | ok q => rw [h] at this; exact absurd rfl this

-- the odd spelling of an effect, from `C15_Pieces`
example : ∃ h', RecordClass.Effect.fromBytes { ByteHandler.new ([0x60, 0x0A, 3, 0, 65, 0, 0, 255, 255] ++ [7]) with version := .VER_88 } =
    .ok ((⟨[65], []⟩ : Effect), h') ∧ Within h' ∧ h'.offset = 0 + 9 :=
  (C53_record_grammar .Effect _ _ 9).2 ⟨⟨by decide +kernel, by decide, nofun⟩, by decide,
    [[0x60, 0x0A, 3, 0, 65, 0, 0], [255, 255]], ⟨.inr ⟨2, by decide, by decide, by decide⟩, .inr ⟨rfl, by decide⟩, trivial⟩, rfl⟩
-- a file with a graphic, whose pointer may be any number but 0
example (v : Version) (hv : v ≠ .UNDEFINED) : (Sample.datFile v).WF ∧
    ∃ a b, (Sample.datFile v).layout = a ++ .slot true :: b ∧ (Item.slot true).Odd [7, 0, 0, 0] := by
  refine ⟨⟨v, Sample.datFile_wf v hv⟩, ?_⟩
  have : Item.slot true ∈ (Sample.datFile v).layout := by
    have : ((Sample.datFile v).layout.any fun | .slot true => true | _ => false) = true := by
      cases v <;> first | (exact absurd rfl hv) | decide +kernel
    obtain ⟨it, hi, h⟩ := List.any_eq_true.1 this
    split at h
    · exact hi
    · cases h
  obtain ⟨a, b, e⟩ := List.append_of_mem this
  exact ⟨a, b, e, rfl, by decide, by decide⟩

end Genie
