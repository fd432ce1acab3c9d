import Verif.Spec.Store
import Verif.Props.C43_Readme
import Verif.Props.C40_UpgradeAndBack
/-!
# C44: histories of edits

The vocabulary is in `Verif/Spec/Store.lean`.
-/

namespace Genie

theorem Store.put_same (st : Store) (p : Path) (o : Outcome DatFile) (h : st p = o) : st.put p o = st := by
  funext q
  by_cases hq : q = p
  · subst hq; simp [Store.put, h]
  · simp [Store.put, hq]

theorem loads_put (z : Zlib) (fs : FileSystem) (p : Path) (content : Bytes) (o : Outcome DatFile)
    (h : (z.decompress content = none ∧ o = .raised .zlibError) ∨
      ∃ data, z.decompress content = some data ∧ o = outcomeOf (DatFile.ofData data)) :
    loads z (fun q => if q = p then some content else fs q) = (loads z fs).put p o := by
  funext q
  by_cases hq : q = p
  · subst hq
    rcases h with ⟨h, rfl⟩ | ⟨data, h, rfl⟩
    · simp only [loads, DatFile.parse, Store.put, if_true, h]
    · simp only [loads, DatFile.parse, Store.put, if_true, h]
      cases DatFile.ofData data <;> rfl
  · simp only [loads, DatFile.parse, Store.put, if_neg hq]

theorem decompress_compress {z : Zlib} (hz : z.Lawful) (bs : Bytes) : z.decompress (z.compress bs) = some bs := by
  simpa using hz.inverse bs []

theorem comesBack_ok {d : DatFile} {bs : Bytes} (h : DatFile.toBytes d = .ok bs) :
    comesBack d = some (outcomeOf (DatFile.ofData bs)) := by
  simp only [comesBack, h]

theorem comesBack_error {d : DatFile} {e : PyErr} (h : DatFile.toBytes d = .error e) : comesBack d = none := by
  simp only [comesBack, h]

/-- What a run does to the disk. -/
theorem run_cases (z : Zlib) (fs : FileSystem) (s : Session) :
    (s.entry (loads z fs) = none ∧ s.run z fs = fs) ∨
    ∃ bs, s.entry (loads z fs) = some (outcomeOf (DatFile.ofData bs)) ∧
      s.run z fs = (writeBytes s.env fs s.dst (z.compress bs)).1 := by
  cases hp : DatFile.parse z fs s.src with
  | raised e => left; simp only [Session.entry, loads, hp, Session.run, editFile, and_self]
  | crashed => left; simp only [Session.entry, loads, hp, Session.run, editFile, and_self]
  | returned d =>
    cases he : s.edit d with
    | error e => left; simp only [Session.entry, loads, hp, he, Session.run, editFile, and_self]
    | ok d' =>
      cases hb : DatFile.toBytes d' with
      | error e =>
        left
        simp only [Session.entry, loads, hp, he, Session.run, editFile, comesBack_error hb, DatFile.save, hb, and_self]
      | ok bs =>
        right
        refine ⟨bs, ?_, ?_⟩
        · simp only [Session.entry, loads, hp, he, comesBack_ok hb]
        · simp only [Session.run, editFile, hp, he, DatFile.save, hb]

/-- A run that is not interrupted does to the loads what `Session.apply` says. -/
theorem C44_run (z : Zlib) (hz : z.Lawful) (fs : FileSystem) (s : Session) (hf : s.env.fault = none) :
    loads z (s.run z fs) = s.apply (loads z fs) := by
  rcases run_cases z fs s with ⟨h1, h2⟩ | ⟨bs, h1, h2⟩
  · rw [h2]; simp only [Session.apply, h1]
  · rw [h2]
    simp only [Session.apply, h1, writeBytes, hf, runOps_all]
    exact loads_put z fs s.dst _ _ (.inr ⟨bs, decompress_compress hz bs, rfl⟩)

/-- An interrupted run may also do nothing, or leave a file that cannot be decompressed. -/
theorem C44_interrupted_run (z : Zlib) (hz : z.Lawful) (fs : FileSystem) (s : Session) :
    s.May (loads z fs) (loads z (s.run z fs)) := by
  cases hf : s.env.fault with
  | none => rw [C44_run z hz fs s hf]; exact .done
  | some kc =>
    obtain ⟨k, crash⟩ := kc
    rcases run_cases z fs s with ⟨-, h2⟩ | ⟨bs, h1, h2⟩
    · rw [h2]; exact .nothing
    · rw [h2]
      simp only [writeBytes, hf]
      rcases runOps_writeOps s.env s.dst fs (z.compress bs) k with ⟨-, h3⟩ | ⟨-, h3⟩
      · rw [h3]; exact .nothing
      · rw [h3]
        have hpre : ((s.env.split (z.compress bs)).take (k - 1)).flatten <+: z.compress bs := by
          have := take_flatten_prefix (s.env.split (z.compress bs)) (k - 1)
          rwa [s.env.split_join] at this
        by_cases hc : ((s.env.split (z.compress bs)).take (k - 1)).flatten = z.compress bs
        · rw [hc]
          have : loads z (fun q => if q = s.dst then some (z.compress bs) else fs q) = s.apply (loads z fs) := by
            simp only [Session.apply, h1]
            exact loads_put z fs s.dst _ _ (.inr ⟨bs, decompress_compress hz bs, rfl⟩)
          rw [this]; exact .done
        · rw [loads_put z fs s.dst _ (.raised .zlibError) (.inl ⟨hz.truncated bs _ hpre hc, rfl⟩)]
          exact .broken _ h1 (by rw [hf]; simp)

/-- Any number of runs, none of them interrupted: the loads are those of the abstract store. -/
theorem C44_history (z : Zlib) (hz : z.Lawful) (fs : FileSystem) (history : List Session) (hf : ∀ s ∈ history, s.env.fault = none) :
    loads z (runHistory z fs history) = history.foldl (fun st s => s.apply st) (loads z fs) := by
  induction history generalizing fs with
  | nil => rfl
  | cons s history ih =>
    simp only [runHistory, List.foldl_cons]
    rw [← C44_run z hz fs s (hf s List.mem_cons_self)]
    exact ih (s.run z fs) fun s' hs' => hf s' (List.mem_cons_of_mem _ hs')

/-- Any number of runs, each of them interrupted anywhere or not at all. -/
theorem C44_interrupted_history (z : Zlib) (hz : z.Lawful) (fs : FileSystem) (history : List Session) :
    MayLead (loads z fs) history (loads z (runHistory z fs history)) := by
  induction history generalizing fs with
  | nil => exact .nil _
  | cons s history ih => exact .cons (C44_interrupted_run z hz fs s) (ih (s.run z fs))

/-! ## consequences -/

/-- A well-formed object comes back as it is. -/
theorem C44_wellformed_comes_back (d : DatFile) (hd : DatFile.WF d) : comesBack d = some (.returned d) := by
  obtain ⟨bs, hb, -⟩ := C12_datfile_round_trip_file d hd
  rw [comesBack_ok hb, ofData_toBytes d hd bs hb]
  rfl

/-- An object saved under another version comes back converted (C20, C21, C35 say how). -/
theorem C44_converted_comes_back (w : Version) (d d' : DatFile) (h : ConvertsTo w d d') :
    comesBack { d with version := w.value } = some (.returned d') := by
  obtain ⟨bs, hb, h', hr, -, -⟩ := h
  rw [comesBack_ok hb]
  have : DatFile.ofData bs = .ok d' := by simp only [DatFile.ofData, hr]
  rw [this]
  rfl

/-- An edit that makes well-formed objects of well-formed ones. -/
def KeepsWF (edit : DatFile → Py DatFile) : Prop := ∀ d d', DatFile.WF d → edit d = .ok d' → DatFile.WF d'

/-- If the edits of all runs keep objects well-formed, then after any history, interrupted or not, loading a file gives what it gave at
the beginning, or `zlib.error`, or a well-formed object that a run of the history has written to that file. -/
theorem C44_loads_after (z : Zlib) (hz : z.Lawful) (fs : FileSystem) (history : List Session) (hk : ∀ s ∈ history, KeepsWF s.edit)
    (p : Path) :
    loads z (runHistory z fs history) p = loads z fs p ∨
    (∃ s ∈ history, s.dst = p ∧ s.env.fault ≠ none ∧ loads z (runHistory z fs history) p = .raised .zlibError) ∨
    ∃ s ∈ history, s.dst = p ∧ ∃ d d', DatFile.WF d ∧ s.edit d = .ok d' ∧ DatFile.WF d' ∧
      loads z (runHistory z fs history) p = .returned d' := by
  induction history generalizing fs with
  | nil => exact .inl rfl
  | cons s history ih =>
    have step : loads z (s.run z fs) p = loads z fs p ∨
        (s.dst = p ∧ s.env.fault ≠ none ∧ loads z (s.run z fs) p = .raised .zlibError) ∨
        (s.dst = p ∧ ∃ d d', DatFile.WF d ∧ s.edit d = .ok d' ∧ DatFile.WF d' ∧ loads z (s.run z fs) p = .returned d') := by
      have entry : ∀ o, s.entry (loads z fs) = some o → ∃ d d', DatFile.WF d ∧ s.edit d = .ok d' ∧ DatFile.WF d' ∧ o = .returned d' := by
        intro o ho
        unfold Session.entry at ho
        cases hp : loads z fs s.src with
        | raised e => rw [hp] at ho; cases ho
        | crashed => rw [hp] at ho; cases ho
        | returned d =>
          rw [hp] at ho
          cases he : s.edit d with
          | error e => simp only [he] at ho; cases ho
          | ok d' =>
            simp only [he] at ho
            have hd : DatFile.WF d := parse_wf hp
            have hd' := hk s List.mem_cons_self d d' hd he
            rw [C44_wellformed_comes_back d' hd'] at ho
            exact ⟨d, d', hd, he, hd', (Option.some.inj ho).symm⟩
      have may := C44_interrupted_run z hz fs s
      generalize hst : loads z (s.run z fs) = st' at may
      cases may with
      | nothing => exact .inl rfl
      | broken o h hf =>
        by_cases hp : p = s.dst
        · exact .inr (.inl ⟨hp.symm, hf, by simp [Store.put, hp]⟩)
        · exact .inl (by simp [Store.put, hp])
      | done =>
        unfold Session.apply
        cases ho : s.entry (loads z fs) with
        | none => exact .inl rfl
        | some o =>
          by_cases hp : p = s.dst
          · obtain ⟨d, d', h1, h2, h3, rfl⟩ := entry o ho
            exact .inr (.inr ⟨hp.symm, d, d', h1, h2, h3, by simp [Store.put, hp]⟩)
          · exact .inl (by simp [Store.put, hp])
    have rest := ih (s.run z fs) fun s' hs' => hk s' (List.mem_cons_of_mem _ hs')
    simp only [runHistory, List.foldl_cons] at rest ⊢
    rcases rest with h | ⟨s', hs', h⟩ | ⟨s', hs', h⟩
    · rcases step with h' | ⟨h1, h2, h3⟩ | ⟨h1, d, d', h2⟩
      · exact .inl (h.trans h')
      · exact .inr (.inl ⟨s, List.mem_cons_self, h1, h2, h.trans h3⟩)
      · exact .inr (.inr ⟨s, List.mem_cons_self, h1, d, d', h2.1, h2.2.1, h2.2.2.1, h.trans h2.2.2.2⟩)
    · exact .inr (.inl ⟨s', List.mem_cons_of_mem _ hs', h⟩)
    · exact .inr (.inr ⟨s', List.mem_cons_of_mem _ hs', h⟩)

/-- Files that no run writes to are not touched, byte for byte. -/
theorem C44_other_files (z : Zlib) (fs : FileSystem) (history : List Session) (p : Path) (h : ∀ s ∈ history, s.dst ≠ p) :
    runHistory z fs history p = fs p := by
  induction history generalizing fs with
  | nil => rfl
  | cons s history ih =>
    simp only [runHistory, List.foldl_cons]
    refine (ih (s.run z fs) fun s' hs' => h s' (List.mem_cons_of_mem _ hs')).trans ?_
    have hp : p ≠ s.dst := fun e => h s List.mem_cons_self e.symm
    rcases run_cases z fs s with ⟨-, h2⟩ | ⟨bs, -, h2⟩
    · rw [h2]
    · rw [h2]
      unfold writeBytes
      cases s.env.fault with
      | none => simp [runOps_all, hp]
      | some kc =>
        rcases runOps_writeOps s.env s.dst fs (z.compress bs) kc.1 with ⟨-, h3⟩ | ⟨-, h3⟩
        · simp only [h3]
        · simp only [h3, if_neg hp]

/-- The programs of the README are such edits. -/
theorem C44_readme_keeps_wf : KeepsWF changeLoom ∧ KeepsWF changeKings := by
  constructor
  · rintro d d' ⟨v, hd⟩ he
    by_cases h : 22 < d.techs.length
    · rw [(C43_loom_edit v d hd).2 h] at he
      cases he
      obtain ⟨o, bs, hb, hall⟩ := C27_loom v d hd 22 0 h (by decide)
      obtain ⟨bs', hb', -, -, h', hr⟩ := hall 69 (by decide)
      exact (C13_round_trips_iff _ bs' hb').1 ⟨h', hr⟩
    · rw [(C43_loom_edit v d hd).1 (by omega)] at he
      cases he
  · rintro d d' ⟨v, hd⟩ he
    cases hp : d.civs.findSome? kingProblem with
    | some e => rw [(C43_king_edit d).1 e hp] at he; cases he
    | none =>
      rw [(C43_king_edit d).2 (List.findSome?_eq_none_iff.1 hp)] at he
      cases he
      obtain ⟨bs', h', hb', hr⟩ := C32_kings v d hd 434
      exact (C13_round_trips_iff _ bs' hb').1 ⟨h', hr⟩

/-- So is setting an integer field, anywhere in the file, to a value in its range (C27), ... -/
theorem C44_int_edit_wf (v : Version) (d : DatFile) (hd : DatFile.WFAt v d) (n : Node) (p : Place .file n) (hs : p.Stored v)
    (x : n.Obj) (hx : p.get d = some x) (f : IntField n.Obj) (hf : f ∈ n.intFields v)
    (hk : ¬ (n = .record .TrainLocation ∧ f.name = "hot_key_id")) (i : Int) (hi : FitsInt f.width f.signed i) :
    DatFile.WF (p.set d (f.set x i)) := by
  obtain ⟨pre, post, -, h2⟩ := C27_int_field v d hd n p hs x hx f hf hk
  obtain ⟨h3, h', h4⟩ := h2 i hi
  exact (C13_round_trips_iff _ _ h3).1 ⟨h', h4⟩

/-- ... and replacing a list by another one that fits (C32). -/
theorem C44_list_edit_wf (v : Version) (d : DatFile) (hd : DatFile.WFAt v d) (n : Node) (p : Place .file n) (hs : p.Stored v)
    (x : n.Obj) (hx : p.get d = some x) (max : Nat) (f : ListField n.Obj) (hf : (max, f) ∈ n.countedLists v) (l : List f.Elem)
    (hk : n = .record .Creatable → n.Kept x (f.set x l)) (hl : l.length ≤ max ∧ ∀ e ∈ l, f.ok e) :
    DatFile.WF (p.set d (f.set x l)) := by
  obtain ⟨bs, h', h1, h2⟩ := (C32_counted_list v d hd n p hs x hx max f hf l hk).2 hl
  exact (C13_round_trips_iff _ _ h1).1 ⟨h', h2⟩

/-! ## a history -/

/-- A crash in the middle of a save, then a complete run: a concrete history all theorems above apply to. -/
def Sample.history : List Session :=
  [⟨"in.dat", changeLoom, "mod.dat", Environment.byteWise (some (7, true))⟩,
   ⟨"mod.dat", changeKings, "mod.dat", Environment.byteWise none⟩,
   ⟨"in.dat", changeKings, "mod.dat", Environment.byteWise none⟩]

/-- The first run leaves a file that cannot be loaded, the second one can do nothing about it, the third one overwrites it. -/
example (v : Version) (hv : v ≠ .UNDEFINED) : ∃ fs,
    loads Zlib.toy fs "in.dat" = .returned (Sample.modFile v (some (Sample.archer v))) ∧
    loads Zlib.toy (runHistory Zlib.toy fs Sample.history) "mod.dat" =
      .returned ((Sample.modFile v (some (Sample.archer v))).popTasks 434) ∧
    loads Zlib.toy (runHistory Zlib.toy fs Sample.history) "in.dat" = loads Zlib.toy fs "in.dat" := by
  have hw := Sample.modFile_wf v hv (some (Sample.archer v)) fun u hu => by cases hu; exact Sample.archer_wf v hv
  obtain ⟨bs, h⟩ := Sample.disk_parse Zlib.toy Zlib.toy_lawful "in.dat" _ ⟨v, hw⟩
  refine ⟨_, h, ?_, ?_⟩
  · have last : ∀ fs, loads Zlib.toy fs "in.dat" = .returned (Sample.modFile v (some (Sample.archer v))) →
        loads Zlib.toy (Session.run Zlib.toy fs ⟨"in.dat", changeKings, "mod.dat", Environment.byteWise none⟩) "mod.dat" =
          .returned ((Sample.modFile v (some (Sample.archer v))).popTasks 434) := by
      intro fs hfs
      have hke : changeKings (Sample.modFile v (some (Sample.archer v))) = .ok ((Sample.modFile v (some (Sample.archer v))).popTasks 434) := by
        refine (C43_king_edit _).2 fun c hc => ?_
        obtain ⟨c', hc', rfl⟩ := List.mem_map.1 hc
        rfl
      rw [C44_run Zlib.toy Zlib.toy_lawful fs _ rfl]
      simp only [Session.apply, Session.entry, hfs, hke,
        C44_wellformed_comes_back _ (C44_readme_keeps_wf.2 _ _ ⟨v, hw⟩ hke), Store.put, if_true]
    refine last (runHistory Zlib.toy _ (Sample.history.take 2)) ?_
    refine Eq.trans ?_ h
    simp only [loads, DatFile.parse]
    rw [C44_other_files Zlib.toy _ (Sample.history.take 2) "in.dat" (by simp [Sample.history])]
  · simp only [loads, DatFile.parse]
    rw [C44_other_files Zlib.toy _ Sample.history "in.dat" (by simp [Sample.history])]

end Genie
