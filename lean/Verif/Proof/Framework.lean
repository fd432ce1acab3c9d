import Verif.Model.Common
import Verif.Proof.Int
import Verif.Proof.Float
import Verif.Proof.Utf8
/-!
# The two proof predicates

* `RW v r w a` — write-then-read;
* `Good v r Q P` — read arbitrary bytes.
-/

namespace Genie

theorem joinB_cons_ok {w : Py Bytes} {ws : List (Py Bytes)} {b bs : Bytes}
    (h1 : w = .ok b) (h2 : joinB ws = .ok bs) : joinB (w :: ws) = .ok (b ++ bs) := by
  simp [joinB, h1, h2]

theorem joinB_cons_eq_ok {w : Py Bytes} {ws : List (Py Bytes)} {bs : Bytes} :
    joinB (w :: ws) = .ok bs ↔ ∃ b bs', w = .ok b ∧ joinB ws = .ok bs' ∧ bs = b ++ bs' := by
  cases w with
  | error e => simp [joinB]
  | ok b =>
    cases h : joinB ws with
    | error e => simp [joinB, h]
    | ok bs' => simp [joinB, h, eq_comm]

/-! ## write then read -/

/-- The reader `r`, at version `v`, reads `bs` as `a` wherever `bs` occurs. -/
def Reads (v : Version) (r : Reader α) (bs : Bytes) (a : α) : Prop :=
  ∀ h : ByteHandler, h.version = v → bs <+: h.content.drop h.offset →
    r h = .ok (a, { h with offset := h.offset + bs.length })

/-- The writer expression `w` succeeds, and `r` reads its bytes as `a`. -/
def RW (v : Version) (r : Reader α) (w : Py Bytes) (a : α) : Prop :=
  ∃ bs, w = .ok bs ∧ Reads v r bs a

theorem drop_prefix {b1 b2 l : Bytes} {n : Nat} (h : b1 ++ b2 <+: l.drop n) :
    b1 <+: l.drop n ∧ b2 <+: l.drop (n + b1.length) := by
  obtain ⟨t, ht⟩ := h
  refine ⟨⟨b2 ++ t, by rw [← ht]; simp⟩, ⟨t, ?_⟩⟩
  rw [← List.drop_drop, ← ht]; simp

theorem Reads.bind {v : Version} {r : Reader α} {f : α → Reader β} {b1 b2 : Bytes} {a : α} {b : β}
    (h1 : Reads v r b1 a) (h2 : Reads v (f a) b2 b) : Reads v (r >>= f) (b1 ++ b2) b := by
  intro h hv hp
  obtain ⟨p1, p2⟩ := drop_prefix hp
  have hb : (r >>= f) h = match r h with | .error e => .error e | .ok (a, h') => f a h' := rfl
  rw [hb]
  rw [h1 h hv p1]
  simp only
  rw [h2 { h with offset := h.offset + b1.length } hv p2]
  simp [Nat.add_assoc]

theorem RW.bind {v : Version} {r : Reader α} {f : α → Reader β} {w : Py Bytes} {ws : List (Py Bytes)}
    {a : α} {b : β} (h1 : RW v r w a) (h2 : RW v (f a) (joinB ws) b) :
    RW v (r >>= f) (joinB (w :: ws)) b := by
  obtain ⟨b1, e1, r1⟩ := h1
  obtain ⟨b2, e2, r2⟩ := h2
  exact ⟨b1 ++ b2, joinB_cons_ok e1 e2, r1.bind r2⟩

theorem Reads.pure {v : Version} {a b : α} (h : a = b) : Reads v (pure a : Reader α) [] b := by
  intro hd hv hp; subst h; rfl

theorem RW.pure {v : Version} {a b : α} (h : a = b) : RW v (pure a : Reader α) (joinB []) b :=
  ⟨[], rfl, Reads.pure h⟩

theorem RW.pure_ok {v : Version} {a b : α} (h : a = b) : RW v (Pure.pure a : Reader α) (.ok []) b :=
  ⟨[], rfl, Reads.pure h⟩

/-- A reader that does not consume anything, before one that does. -/
theorem RW.bind0 {v : Version} {r : Reader α} {f : α → Reader β} {w : Py Bytes}
    {a : α} {b : β} (h1 : Reads v r [] a) (h2 : RW v (f a) w b) : RW v (r >>= f) w b := by
  obtain ⟨b2, e2, r2⟩ := h2
  exact ⟨b2, e2, by simpa using h1.bind r2⟩

theorem RW.getVersion {v : Version} {f : Version → Reader β} {w : Py Bytes} {b : β}
    (h : RW v (f v) w b) : RW v (Genie.getVersion >>= f) w b :=
  RW.bind0 (a := v) (by intro h hv _; subst hv; rfl) h

/-- A final consuming reader whose result is post-processed. -/
theorem RW.map {v : Version} {r : Reader α} {f : α → Reader β} {w : Py Bytes} {a : α} {b : β}
    (h1 : RW v r w a) (h2 : Reads v (f a) [] b) : RW v (r >>= f) w b := by
  obtain ⟨b1, e1, r1⟩ := h1
  exact ⟨b1, e1, by simpa using r1.bind h2⟩

/-- nested `b''.join` -/
theorem joinB_append (ws ws' : List (Py Bytes)) :
    joinB (joinB ws :: ws') = joinB (ws ++ ws') := by
  induction ws with
  | nil =>
    simp only [List.nil_append]
    cases h : joinB ws' <;> simp [joinB, h]
  | cons w ws ih =>
    rw [List.cons_append]
    cases w with
    | error e => simp [joinB]
    | ok b =>
      have h1 : joinB (.ok b :: (ws ++ ws')) =
          match joinB (ws ++ ws') with | .error e => .error e | .ok bs => .ok (b ++ bs) := rfl
      rw [h1, ← ih]
      cases h : joinB ws with
      | error e => simp [joinB, h]
      | ok bs => cases h' : joinB ws' <;> simp [joinB, h, h']

theorem joinB_single (w : Py Bytes) : joinB [w] = w := by
  cases w <;> simp [joinB]

/-! ## reading arbitrary bytes -/

/-- The exceptions a record reader may raise. -/
def ParseErr (e : PyErr) : Prop :=
  e = .structError ∨ e = .assertionError ∨ e = .unicodeDecodeError

/-- `r` on a handler `h` of version `v`, returning `a`: consumed `n` bytes, ghost flag `ℓ`. -/
structure Step (v : Version) (r : Reader α) (Q : α → Prop) (P : α → Bytes → Prop) (h : ByteHandler)
    (a : α) (n : Nat) (l : Bool) : Prop where
  post : Q a
  over : 0 < n → h.content.length < h.offset + n → l = true
  exact_ : l = false → P a ((h.content.drop h.offset).take n)
  frame : h.offset + n ≤ h.content.length → ∀ h2 : ByteHandler, h2.version = v →
    (h.content.drop h.offset).take n <+: h2.content.drop h2.offset →
    r h2 = .ok (a, { h2 with offset := h2.offset + n, lossy := h2.lossy || l })

/-- Reading arbitrary bytes with `r` at version `v`: only parse errors; content and version are kept,
the offset grows; the result satisfies `Q`; if nothing lossy happened, result and consumed bytes are
related by `P`; the behaviour depends on the consumed bytes only. -/
def Good (v : Version) (r : Reader α) (Q : α → Prop) (P : α → Bytes → Prop) : Prop :=
  ∀ h : ByteHandler, h.version = v →
    (∃ e, r h = .error e ∧ ParseErr e) ∨
    (∃ a n l, r h = .ok (a, { h with offset := h.offset + n, lossy := h.lossy || l }) ∧
      Step v r Q P h a n l)

theorem take_add_drop (l : Bytes) (o n1 n2 : Nat) :
    (l.drop o).take (n1 + n2) = (l.drop o).take n1 ++ (l.drop (o + n1)).take n2 := by
  rw [List.take_add, List.drop_drop]

theorem Good.bind {v : Version} {r : Reader α} {f : α → Reader β} {Q : α → Prop} {P : α → Bytes → Prop}
    {Q' : β → Prop} {P' : β → Bytes → Prop} (h1 : Good v r Q P)
    (h2 : ∀ a, Q a → Good v (f a) Q' (fun b bs2 => ∀ bs1, P a bs1 → P' b (bs1 ++ bs2))) :
    Good v (r >>= f) Q' P' := by
  intro h hv
  have hb : ∀ h : ByteHandler, (r >>= f) h =
      match r h with | .error e => .error e | .ok (a, h') => f a h' := fun _ => rfl
  rw [hb h]
  rcases h1 h hv with ⟨e, he, hp⟩ | ⟨a, n1, l1, hr, s1⟩
  · left; exact ⟨e, by rw [he], hp⟩
  · rw [hr]
    rcases h2 a s1.post { h with offset := h.offset + n1, lossy := h.lossy || l1 } hv with
      ⟨e, he, hp⟩ | ⟨b, n2, l2, hr2, s2⟩
    · left; exact ⟨e, he, hp⟩
    · right
      refine ⟨b, n1 + n2, l1 || l2, ?_, s2.post, ?_, ?_, ?_⟩
      · simp only [hr2]; simp [Nat.add_assoc, Bool.or_assoc]
      · intro hn ho
        by_cases hz : n2 = 0
        · subst hz; rw [s1.over (by omega) (by omega)]; rfl
        · have := s2.over (by omega) (by simpa using (by omega : h.content.length < h.offset + n1 + n2))
          rw [this]; simp
      · intro hl
        simp at hl
        rw [take_add_drop]
        exact s2.exact_ hl.2 _ (s1.exact_ hl.1)
      · intro hle k hk hp
        rw [take_add_drop] at hp
        obtain ⟨p1, p2⟩ := drop_prefix hp
        have hlen : ((h.content.drop h.offset).take n1).length = n1 := by
          rw [List.length_take, List.length_drop]; omega
        rw [hlen] at p2
        rw [hb k, s1.frame (by omega) k hk p1]
        have := s2.frame (by simpa using (by omega : h.offset + n1 + n2 ≤ h.content.length))
          { k with offset := k.offset + n1, lossy := k.lossy || l1 } hk p2
        simp only [this]
        simp [Nat.add_assoc, Bool.or_assoc]

theorem Good.pure {v : Version} {a : α} {Q : α → Prop} {P : α → Bytes → Prop} (hq : Q a) (hp : P a []) :
    Good v (pure a : Reader α) Q P := by
  intro h hv
  right
  refine ⟨a, 0, false, ?_, hq, by omega, by intro _; simpa using hp, ?_⟩
  · show Except.ok (a, h) = _; simp
  · intro _ k _ _; show Except.ok (a, k) = _; simp

theorem Good.mono {v : Version} {r : Reader α} {Q Q' : α → Prop} {P P' : α → Bytes → Prop}
    (h : Good v r Q P) (hq : ∀ a, Q a → Q' a) (hp : ∀ a bs, Q a → P a bs → P' a bs) : Good v r Q' P' := by
  intro hd hv
  rcases h hd hv with he | ⟨a, n, l, hr, s⟩
  · exact Or.inl he
  · exact Or.inr ⟨a, n, l, hr, hq a s.post, s.over, fun hl => hp a _ s.post (s.exact_ hl), s.frame⟩

theorem Good.raise {v : Version} {e : PyErr} {Q : α → Prop} {P : α → Bytes → Prop} (h : ParseErr e) :
    Good v (raise e : Reader α) Q P := fun _ _ => Or.inl ⟨e, rfl, h⟩

theorem Good.getVersion {v : Version} {f : Version → Reader β} {Q : β → Prop} {P : β → Bytes → Prop}
    (h : Good v (f v) Q P) : Good v (Genie.getVersion >>= f) Q P := by
  intro hd hv
  have hb : ∀ k : ByteHandler, k.version = v → (Genie.getVersion >>= f) k = f v k := by
    intro k hk; subst hk; rfl
  rw [hb hd hv]
  rcases h hd hv with he | ⟨a, n, l, hr, s⟩
  · exact Or.inl he
  · exact Or.inr ⟨a, n, l, hr, s.post, s.over, s.exact_, fun hle k hk hp => by
      rw [hb k hk]; exact s.frame hle k hk hp⟩

theorem Good.noteLossy {v : Version} {b : Bool} {P : Unit → Bytes → Prop} (h : b = false → P () []) :
    Good v (Genie.noteLossy b) (fun _ => True) P := by
  intro hd hv
  right
  refine ⟨(), 0, b, ?_, trivial, by omega, ?_, ?_⟩
  · show Except.ok _ = _; simp
  · intro hl; simpa using h hl
  · intro _ k _ _; show Except.ok _ = _; simp

theorem Good.liftPy {v : Version} {x : Py α} {Q : α → Prop} {P : α → Bytes → Prop}
    (he : ∀ e, x = .error e → ParseErr e) (hok : ∀ a, x = .ok a → Q a ∧ P a []) :
    Good v (Genie.liftPy x) Q P := by
  intro hd hv
  cases x with
  | error e => exact Or.inl ⟨e, rfl, he e rfl⟩
  | ok a =>
    right
    refine ⟨a, 0, false, ?_, (hok a rfl).1, by omega, by intro _; simpa using (hok a rfl).2, ?_⟩
    · show Except.ok (a, hd) = _; simp
    · intro _ k _ _; show Except.ok (a, k) = _; simp

theorem slice_eq (content : Bytes) (o n : Nat) : slice content o (o + n) = (content.drop o).take n := by
  unfold slice; rw [List.drop_take]; congr 1; omega

/-- `consume_range(n)`: at most `n` bytes; exactly `n` unless lossy. -/
theorem Good.consumeRange {v : Version} (n : Nat) :
    Good v (Genie.consumeRange n) (fun c => c.length ≤ n) (fun c bs => c = bs ∧ bs.length = n) := by
  intro h hv
  right
  refine ⟨slice h.content h.offset (h.offset + n), n,
    decide (0 < n ∧ h.content.length < h.offset + n), rfl, ?_, ?_, ?_, ?_⟩
  · rw [slice_eq, List.length_take]; omega
  · intro hn ho; simpa using ⟨hn, ho⟩
  · intro hl
    simp at hl
    rw [slice_eq, List.length_take, List.length_drop]
    exact ⟨rfl, by omega⟩
  · intro hle k hk hp
    have hlen : ((h.content.drop h.offset).take n).length = n := by
      rw [List.length_take, List.length_drop]; omega
    have hs : (k.content.drop k.offset).take n = (h.content.drop h.offset).take n := by
      obtain ⟨t, ht⟩ := hp
      rw [← ht, List.take_append_of_le_length (by omega), List.take_of_length_le (by omega)]
    have hk2 := hp.length_le
    rw [hlen, List.length_drop] at hk2
    unfold Genie.consumeRange
    simp only [slice_eq, hs]
    rw [decide_eq_false (by omega), decide_eq_false (by omega)]

end Genie
