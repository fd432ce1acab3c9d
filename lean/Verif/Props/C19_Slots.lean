import Verif.Props.C11_C15_RoundTrip
/-!
# C19: empty slots
-/

namespace Genie

/-- What slots a read gives is determined by the pointers alone: as many as asked for, and slot `i` is `None` exactly if
pointer `i` is 0.  (Any element class, any content.) -/
theorem C19_slots_follow_pointers (fromBytes : Reader α) (size : Int) (pointers : List Int) (h h' : ByteHandler)
    (l : List (Option α)) (hr : readClassArrayWithPointers fromBytes size pointers h = .ok (l, h')) :
    l.length = size.toNat ∧ ∀ i, i < size.toNat → (l[i]? = some none ↔ pointers[i]? = some 0) := by
  have key : ∀ n i0 (h h' : ByteHandler) (l : List (Option α)),
      readPointersFrom fromBytes pointers i0 n h = .ok (l, h') →
      l.length = n ∧ ∀ i, i < n → (l[i]? = some none ↔ pointers[i0 + i]? = some 0) := by
    intro n
    induction n with
    | zero =>
      intro i0 h h' l hr
      cases hr
      exact ⟨rfl, fun i hi => absurd hi (by omega)⟩
    | succ n ih =>
      intro i0 h h' l hr
      cases hp : pointers[i0]? with
      | none => simp only [readPointersFrom, hp] at hr; cases hr
      | some p =>
        simp only [readPointersFrom, hp] at hr
        have hn : noteLossy (decide (p ≠ 0 ∧ p ≠ 1)) h =
          .ok ((), { h with lossy := h.lossy || decide (p ≠ 0 ∧ p ≠ 1) }) := rfl
        rw [bind_ok hn] at hr
        have fin : ∀ (o : Option α) (k : ByteHandler), (o = none ↔ p = 0) →
            (do let elements ← readPointersFrom fromBytes pointers (i0 + 1) n
                return o :: elements : Reader (List (Option α))) k = .ok (l, h') →
            l.length = n + 1 ∧ ∀ i, i < n + 1 → (l[i]? = some none ↔ pointers[i0 + i]? = some 0) := by
          intro o k ho hk
          cases hq : readPointersFrom fromBytes pointers (i0 + 1) n k with
          | error e => rw [bind_err hq] at hk; cases hk
          | ok r =>
            obtain ⟨l', k'⟩ := r
            rw [bind_ok hq] at hk
            cases hk
            obtain ⟨i1, i2⟩ := ih _ _ _ _ hq
            refine ⟨by simp [i1], fun i hi => ?_⟩
            cases i with
            | zero => simp [hp, ho]
            | succ i =>
              have := i2 i (by omega)
              rw [show i0 + 1 + i = i0 + (i + 1) by omega] at this
              simpa using this
        by_cases hp0 : p = 0
        · rw [readIf, if_neg (by simp [hp0])] at hr
          rw [bind_ok (a := none) (h' := { h with lossy := h.lossy || decide (p ≠ 0 ∧ p ≠ 1) }) rfl] at hr
          exact fin none _ (by simp [hp0]) hr
        · rw [readIf, if_pos hp0] at hr
          cases hq : fromBytes { h with lossy := h.lossy || decide (p ≠ 0 ∧ p ≠ 1) } with
          | error e =>
            rw [bind_err (e := e) (by rw [bind_err hq])] at hr
            cases hr
          | ok r =>
            obtain ⟨a, k⟩ := r
            rw [bind_ok (a := some a) (h' := k) (by rw [bind_ok hq]; rfl)] at hr
            exact fin (some a) _ (by simp [hp0]) hr
  have := key size.toNat 0 h h' l hr
  simpa using this

/-- The pattern of slots: `0` for an empty one, `1` for a filled one, as 4-byte integers. -/
def slotTable (l : List (Option α)) : Bytes := l.flatMap fun o => natLE 4 (if o.isNone then 0 else 1)

theorem writeInt32Array_slots (l : List (Option α)) :
    writeInt32Array (slotPointers l) = .ok (slotTable l) := by
  unfold writeInt32Array slotPointers
  induction l with
  | nil => rfl
  | cons o l ih =>
    simp only [List.map_cons, List.map_map] at ih ⊢
    rw [joinB_cons_ok (b := natLE 4 (if o.isNone then 0 else 1)) (by cases o <;> rfl) ih]
    rfl

/-- A civ writes its slot pattern in front of its units, which it writes in order, skipping the empty slots. -/
theorem C19_civ_writes_slots (v : Version) (c : Civ) (bs : Bytes) (h : Civ.toBytes v c = .ok bs) :
    ∃ front units, bs = front ++ slotTable c.units ++ units ∧
      joinB ((c.units.filterMap id).map (Unit.toBytes v)) = .ok units := by
  unfold Civ.toBytes at h
  rw [Civ.unit_pointers_eq, writeInt32Array_slots] at h
  simp only [joinB_cons_eq_ok] at h
  obtain ⟨b1, _, -, ⟨b2, _, -, ⟨b3, _, -, ⟨b4, _, -, ⟨b5, _, -, ⟨b6, _, -, ⟨b7, _, -, ⟨b8, _, -, ⟨b9, _, e9,
    ⟨b10, _, e10, e11, rfl⟩, rfl⟩, rfl⟩, rfl⟩, rfl⟩, rfl⟩, rfl⟩, rfl⟩, rfl⟩, rfl⟩ := h
  simp only [joinB, Except.ok.injEq] at e9 e11
  subst e9; subst e11
  exact ⟨b1 ++ b2 ++ b3 ++ b4 ++ b5 ++ b6 ++ b7 ++ b8, b10, by simp, e10⟩

/-- The units of a well-formed civ, empty slots included, come back in the same slots. -/
theorem C19_civ_slots (v : Version) (c : Civ) (hc : Civ.WF v c) :
    ∃ bs, Civ.toBytes v c = .ok bs ∧ ∀ h : ByteHandler, h.version = v → bs <+: h.content.drop h.offset →
      ∃ c' h', Civ.fromBytes h = .ok (c', h') ∧ c'.units.length = c.units.length ∧
        ∀ i : Nat, c'.units[i]? = c.units[i]? := by
  obtain ⟨bs, h1, h2⟩ := RecordClass.rw .Civ hc
  exact ⟨bs, h1, fun h hv hp => ⟨c, _, h2 h hv hp, rfl, fun _ => rfl⟩⟩

/-- Likewise the graphics of a well-formed file. -/
theorem C19_graphic_slots (d : DatFile) (hd : DatFile.WF d) :
    ∃ bs, DatFile.toBytes d = .ok bs ∧ ∀ post, ∃ d' h', DatFile.fromBytes (ByteHandler.new (bs ++ post)) = .ok (d', h') ∧
      d'.graphics.length = d.graphics.length ∧ ∀ i : Nat, d'.graphics[i]? = d.graphics[i]? := by
  obtain ⟨bs, h1, h2⟩ := C12_datfile_round_trip_file d hd
  refine ⟨bs, h1, fun post => ?_⟩
  obtain ⟨h', h3, -⟩ := h2 post
  exact ⟨d, h', h3, rfl, fun _ => rfl⟩

/-- A civ with filled and empty slots. -/
example : Civ.WF .VER_84 (Sample.civ .VER_84) ∧ (Sample.civ .VER_84).units.map Option.isNone =
    [false, true, false, false, false, true] := ⟨Sample.wf .VER_84 (by decide) .Civ, by decide⟩

end Genie
