import Verif.Proof.Truncate
import Verif.Proof.Framework
/-!
# Reading integers past the end of the data is reading zeros

Helper lemmas for C28: where the last byte of the data is below 128, integer readers return the same values as if the data went
on with zeros.
-/

namespace Genie

/-- The last byte, if there is one, is below 128. -/
def EndsLow (c : Bytes) : Prop := ∀ b, c.getLast? = some b → b.toNat < 128

theorem EndsLow.drop {c : Bytes} (h : EndsLow c) (n : Nat) : EndsLow (c.drop n) := by
  intro b hb
  refine h b ?_
  rw [List.getLast?_drop] at hb
  split at hb
  · simp at hb
  · exact hb

theorem leNat_append_zeros (s : Bytes) (j : Nat) : leNat (s ++ List.replicate j 0) = leNat s := by
  induction s with
  | nil =>
    induction j with
    | zero => rfl
    | succ j ih =>
      simp only [List.nil_append] at ih
      simp only [List.nil_append, List.replicate_succ, leNat, ih]
      rfl
  | cons b s ih => simp only [List.cons_append, leNat, ih]

theorem leNat_low' {s : Bytes} (h : EndsLow s) (hs : s ≠ []) : 2 * leNat s + 2 ≤ 256 ^ s.length := by
  induction s with
  | nil => exact absurd rfl hs
  | cons b s ih =>
    cases s with
    | nil =>
      have := h b rfl
      simp [leNat]; omega
    | cons c s =>
      have h1 := ih (fun x hx => h x (by simpa [List.getLast?_cons_cons] using hx)) (by simp)
      have hb : b.toNat < 256 := b.toNat_lt
      rw [leNat, List.length_cons, Nat.pow_succ]
      generalize leNat (c :: s) = x at *
      generalize 256 ^ (c :: s).length = y at *
      omega

theorem leNat_low {s : Bytes} (h : EndsLow s) : 2 * leNat s < 256 ^ s.length := by
  by_cases hs : s = []
  · subst hs; simp [leNat]
  · have := leNat_low' h hs; omega

theorem intFromBytes_low {s : Bytes} (h : EndsLow s) (sg : Bool) : intFromBytes s sg = leNat s := by
  unfold intFromBytes
  rw [if_neg]
  rintro ⟨-, h2⟩
  have := leNat_low h
  omega

theorem EndsLow.zeros {s : Bytes} (h : EndsLow s) (j : Nat) : EndsLow (s ++ List.replicate j 0) := by
  intro b hb
  cases j with
  | zero => exact h b (by simpa using hb)
  | succ j =>
    rw [List.replicate_succ', ← List.append_assoc, List.getLast?_concat] at hb
    cases hb; decide

theorem slice_zeros (c : Bytes) (m o n : Nat) :
    slice (c ++ List.replicate m 0) o (o + n) = slice c o (o + n) ∨
    (slice c o (o + n) = c.drop o ∧ ∃ j, slice (c ++ List.replicate m 0) o (o + n) = c.drop o ++ List.replicate j 0) := by
  unfold slice
  by_cases h : o + n ≤ c.length
  · exact .inl (by rw [List.take_append_of_le_length h])
  · refine .inr ⟨by rw [List.take_of_length_le (by omega)], ?_⟩
    rw [List.take_append, List.take_of_length_le (by omega), List.drop_append, List.take_replicate, List.drop_replicate]
    exact ⟨_, rfl⟩

theorem intFromBytes_slice_zeros {c : Bytes} (h : EndsLow c) (m o n : Nat) (sg : Bool) :
    intFromBytes (slice (c ++ List.replicate m 0) o (o + n)) sg = intFromBytes (slice c o (o + n)) sg := by
  rcases slice_zeros c m o n with h1 | ⟨h1, j, h2⟩
  · rw [h1]
  · rw [h1, h2, intFromBytes_low ((h.drop o).zeros j), intFromBytes_low (h.drop o), leNat_append_zeros]

/-- The same handler, with `m` zeros after the data. -/
def Padded (m : Nat) (h g : ByteHandler) : Prop :=
  g.content = h.content ++ List.replicate m 0 ∧ g.offset = h.offset ∧ g.version = h.version

/-- `m` zeros more do not change what the reader returns. -/
def ZeroFill (m : Nat) (r : Reader α) : Prop := ∀ h g, EndsLow h.content → Padded m h g → ∀ a h', r h = .ok (a, h') →
  h'.content = h.content ∧ ∃ g', r g = .ok (a, g') ∧ Padded m h' g'

theorem ZeroFill.pure {m : Nat} (a : α) : ZeroFill m (pure a : Reader α) := by
  intro h g _ hp b h' hr
  cases hr
  exact ⟨rfl, g, rfl, hp⟩

theorem ZeroFill.bind {m : Nat} {r : Reader α} {f : α → Reader β} (h1 : ZeroFill m r) (h2 : ∀ a, ZeroFill m (f a)) :
    ZeroFill m (r >>= f) := by
  intro h g hl hp b h' hr
  cases hc : r h with
  | error e =>
    exfalso
    have : (r >>= f) h = .error e := by show (match r h with | .error e => _ | .ok (a, h') => _) = _; rw [hc]
    rw [this] at hr; cases hr
  | ok p =>
    obtain ⟨a, h1'⟩ := p
    obtain ⟨e1, g1, e2, p1⟩ := h1 h g hl hp a h1' hc
    rw [bind_ok hc] at hr
    obtain ⟨e3, g2, e4, p2⟩ := h2 a h1' g1 (e1 ▸ hl) p1 b h' hr
    exact ⟨e3.trans e1, g2, by rw [bind_ok e2, e4], p2⟩

theorem ZeroFill.intRead {m n : Nat} {sg : Bool} :
    ZeroFill m (do let c ← consumeRange n; return Int_from_bytes c sg) := by
  intro h g hl hp b h' hr
  obtain ⟨c, o, v, l⟩ := h
  obtain ⟨c', o', v', l'⟩ := g
  obtain ⟨h1, h2, h3⟩ := hp
  simp only at h1 h2 h3 hl
  subst h1 h2 h3
  cases hr
  refine ⟨rfl, ⟨c ++ List.replicate m 0, o' + n, v', l' || decide (0 < n ∧ (c ++ List.replicate m 0).length < o' + n)⟩,
    ?_, rfl, rfl, rfl⟩
  · show Except.ok (Int_from_bytes _ _, _) = _
    unfold Int_from_bytes
    rw [intFromBytes_slice_zeros hl]

theorem ZeroFill.int8 {m : Nat} : ZeroFill m readInt8 := ZeroFill.intRead
theorem ZeroFill.int16 {m : Nat} {s : Bool} : ZeroFill m (readInt16 s) := ZeroFill.intRead
theorem ZeroFill.int32 {m : Nat} {s : Bool} : ZeroFill m (readInt32 s) := ZeroFill.intRead

theorem ZeroFill.noteLossy {m : Nat} {b : Bool} : ZeroFill m (Genie.noteLossy b) := by
  intro h g hl hp a h' hr
  cases hr
  exact ⟨rfl, _, rfl, hp⟩

theorem ZeroFill.repeatR {m : Nat} {r : Reader α} (h : ZeroFill m r) (n : Nat) : ZeroFill m (Genie.repeatR r n) := by
  induction n with
  | zero => exact ZeroFill.pure _
  | succ n ih => exact ZeroFill.bind h fun _ => ZeroFill.bind ih fun _ => ZeroFill.pure _

theorem ZeroFill.array {m : Nat} {r : Reader α} (h : ZeroFill m r) (n : Int) (b : Bool) : ZeroFill m (readArray r n b) :=
  ZeroFill.bind ZeroFill.noteLossy fun _ => ZeroFill.repeatR h _

/-- Prove a goal `ZeroFill m (do …)` of integer reads. -/
macro "zero_fill" : tactic => `(tactic| repeat (first
  | exact ZeroFill.pure _ | exact ZeroFill.int8 | exact ZeroFill.int16 | exact ZeroFill.int32
  | exact ZeroFill.array ZeroFill.int32 _ _
  | assumption
  | refine ZeroFill.array ?_ _ _
  | (refine ZeroFill.bind ?_ fun _ => ?_)))

theorem ZeroFill.int32Array10 {m : Nat} : ZeroFill m readInt32Array10 := by unfold readInt32Array10; zero_fill
theorem ZeroFill.int8Array10 {m : Nat} : ZeroFill m readInt8Array10 := by unfold readInt8Array10; zero_fill
theorem ZeroFill.int8Array5 {m : Nat} : ZeroFill m readInt8Array5 := by unfold readInt8Array5; zero_fill

theorem Common.zeroFill (m : Nat) : ZeroFill m Common.fromBytes := by
  have := @ZeroFill.int32Array10 m
  unfold Common.fromBytes; zero_fill
theorem TechTreeAge.zeroFill (m : Nat) : ZeroFill m TechTreeAge.fromBytes := by
  have := Common.zeroFill m
  have := @ZeroFill.int8Array10 m
  unfold TechTreeAge.fromBytes; zero_fill
theorem BuildingConnection.zeroFill (m : Nat) : ZeroFill m BuildingConnection.fromBytes := by
  have := Common.zeroFill m
  have := @ZeroFill.int8Array5 m
  unfold BuildingConnection.fromBytes; zero_fill
theorem UnitConnection.zeroFill (m : Nat) : ZeroFill m UnitConnection.fromBytes := by
  have := Common.zeroFill m; unfold UnitConnection.fromBytes; zero_fill
theorem ResearchConnection.zeroFill (m : Nat) : ZeroFill m ResearchConnection.fromBytes := by
  have := Common.zeroFill m; unfold ResearchConnection.fromBytes; zero_fill
theorem TechTree.zeroFill (m : Nat) : ZeroFill m TechTree.fromBytes := by
  have := TechTreeAge.zeroFill m
  have := BuildingConnection.zeroFill m
  have := UnitConnection.zeroFill m
  have := ResearchConnection.zeroFill m
  unfold TechTree.fromBytes; zero_fill

end Genie
