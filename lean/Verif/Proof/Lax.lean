import Verif.Proof.Pieces
import Verif.Proof.CutPieces
/-!
# Reading arbitrary bytes, item by item, up to the end of the data and past it

The bytes that are read are marked: `true` for bytes that are there, `false` for bytes that are made up.
-/

namespace Genie

abbrev MBytes := List (UInt8 × Bool)

def MBytes.bytes (m : MBytes) : Bytes := m.map Prod.fst

def there (p : Bytes) : MBytes := p.map fun b => (b, true)
def missing (f : Bytes) : MBytes := f.map fun b => (b, false)

theorem bytes_append (a b : MBytes) : MBytes.bytes (a ++ b) = MBytes.bytes a ++ MBytes.bytes b := List.map_append
theorem bytes_there (p : Bytes) : MBytes.bytes (there p) = p := by simp [MBytes.bytes, there, Function.comp_def]
theorem bytes_missing (p : Bytes) : MBytes.bytes (missing p) = p := by simp [MBytes.bytes, missing, Function.comp_def]
theorem bytes_length (m : MBytes) : m.bytes.length = m.length := List.length_map _
theorem there_length (p : Bytes) : (there p).length = p.length := List.length_map _
theorem missing_length (p : Bytes) : (missing p).length = p.length := List.length_map _
theorem there_append (p q : Bytes) : there (p ++ q) = there p ++ there q := List.map_append
theorem missing_append (p q : Bytes) : missing (p ++ q) = missing p ++ missing q := List.map_append
theorem there_nil : there [] = [] := rfl
theorem missing_nil : missing [] = [] := rfl

/-- The marked bytes are what is read where the data goes on with `rest`. -/
def Feeds (rest : Bytes) (m : MBytes) : Prop := ∃ p f, m = there p ++ missing f ∧ p <+: rest ∧ (f ≠ [] → p = rest)

theorem Feeds.nil {rest : Bytes} : Feeds rest [] := ⟨[], [], rfl, List.nil_prefix, by simp⟩

theorem Feeds.append {rest : Bytes} {m1 m2 : MBytes} (h1 : Feeds rest m1) (h2 : Feeds (rest.drop m1.length) m2) : Feeds rest (m1 ++ m2) := by
  obtain ⟨p, f, rfl, ⟨t, rfl⟩, hf⟩ := h1
  obtain ⟨q, g, rfl, hq, hg⟩ := h2
  rw [List.length_append, there_length, missing_length] at hq hg
  cases f with
  | nil =>
    simp only [List.length_nil, Nat.add_zero, List.drop_left] at hq hg
    refine ⟨p ++ q, g, by simp [there_append, missing_nil], ?_, fun h => by rw [hg h]⟩
    obtain ⟨u, rfl⟩ := hq
    exact ⟨u, by simp⟩
  | cons b f =>
    have ht : t = [] := by simpa using hf (by simp)
    subst ht
    have hd : (p ++ []).drop (p.length + (b :: f).length) = [] := by
      rw [List.drop_eq_nil_iff]; simp
    rw [hd] at hq hg
    have : q = [] := List.prefix_nil.1 hq
    subst this
    exact ⟨p, b :: f ++ g, by rw [there_nil, List.nil_append, List.append_assoc, ← missing_append], by simp, fun _ => by simp⟩

theorem marks_inj : {p q : Bytes} → {f g : Bytes} → there p ++ missing f = there q ++ missing g → p = q ∧ f = g
  | [], [], f, g, h => by
    have := congrArg MBytes.bytes h
    simpa [bytes_append, bytes_there, bytes_missing] using this
  | b :: p, c :: q, f, g, h => by
    simp only [there, List.map_cons, List.cons_append, List.cons.injEq, Prod.mk.injEq] at h
    obtain ⟨h1, h2⟩ := marks_inj (p := p) (q := q) (f := f) (g := g) h.2
    exact ⟨by rw [h.1.1, h1], h2⟩
  | [], c :: q, [], g, h => by simp [there, missing] at h
  | [], c :: q, b :: f, g, h => by simp [there, missing] at h
  | b :: p, [], f, [], h => by simp [there, missing] at h
  | b :: p, [], f, c :: g, h => by simp [there, missing] at h

theorem Feeds.split {rest : Bytes} {m1 m2 : MBytes} (h : Feeds rest (m1 ++ m2)) : Feeds rest m1 ∧ Feeds (rest.drop m1.length) m2 := by
  obtain ⟨p, f, e, hp, hf⟩ := h
  by_cases hl : m1.length ≤ p.length
  · have e1 : m1 = there (p.take m1.length) := by
      have := congrArg (List.take m1.length) e
      rw [List.take_left' rfl, List.take_append_of_le_length (by rw [there_length]; exact hl)] at this
      rw [this, List.length_take, there_length, Nat.min_eq_left hl]
      simp only [there, List.map_take]
    have e2 : m2 = there (p.drop m1.length) ++ missing f := by
      have := congrArg (List.drop m1.length) e
      rw [List.drop_left' rfl, List.drop_append_of_le_length (by rw [there_length]; exact hl)] at this
      rw [this]; simp [there]
    refine ⟨⟨p.take m1.length, [], by rw [missing_nil, List.append_nil]; exact e1, (List.take_prefix _ _).trans hp, by simp⟩, p.drop m1.length, f, e2, ?_, ?_⟩
    · obtain ⟨t, rfl⟩ := hp
      rw [List.drop_append_of_le_length hl]
      exact List.prefix_append _ _
    · intro h; rw [hf h]
  · have hl2 := congrArg List.length e
    rw [List.length_append, List.length_append, there_length, missing_length] at hl2
    have hfe : f ≠ [] := by
      rintro rfl
      simp at hl2; omega
    have e1 : m1 = there p ++ missing (f.take (m1.length - p.length)) := by
      have := congrArg (List.take m1.length) e
      rw [List.take_left' rfl, List.take_append, List.take_of_length_le (by rw [there_length]; omega), there_length] at this
      rw [this]; simp [missing, there_length]
    have e2 : m2 = missing (f.drop (m1.length - p.length)) := by
      have := congrArg (List.drop m1.length) e
      rw [List.drop_left' rfl, List.drop_append, List.drop_of_length_le (by rw [there_length]; omega), there_length] at this
      rw [this]; simp [missing]
    refine ⟨⟨p, _, e1, hp, fun _ => hf hfe⟩, [], _, by rw [there_nil, List.nil_append]; exact e2, List.nil_prefix, fun _ => ?_⟩
    rw [← hf hfe, List.drop_of_length_le (by omega)]

/-! ## items -/

/-- Made-up bytes of a signed integer. -/
def SignFilled (m : MBytes) : Prop := ∃ p k, m = there p ++ missing (List.replicate k (fillByte true p))

/-- Made-up bytes are zero. -/
def ZeroFilled (m : MBytes) : Prop := ∀ x ∈ m, x.2 = false → x.1 = 0

def Item.FillOk (it : Item) (m : MBytes) : Prop :=
  if it.strict = true then ∀ x ∈ m, x.2 = true else if it.signed = true then SignFilled m else ZeroFilled m

def Item.AcceptsM (it : Item) (m : MBytes) : Prop := it.Accepts m.bytes ∧ it.FillOk m

def PiecesM : List Item → List MBytes → Prop
  | [], [] => True
  | it :: its, c :: cs => it.AcceptsM c ∧ PiecesM its cs
  | _, _ => False

def ReadAsM (its : List Item) (m : MBytes) : Prop := ∃ cs, PiecesM its cs ∧ cs.flatten = m

theorem Item.AcceptsM.taken {it : Item} {m : MBytes} {rest : Bytes} (h : it.AcceptsM m) (hf : Feeds rest m) : it.TakenFrom rest m.bytes := by
  obtain ⟨h1, h2⟩ := h
  obtain ⟨p, f, rfl, hp, hr⟩ := hf
  rw [bytes_append, bytes_there, bytes_missing] at *
  refine ⟨h1, ?_⟩
  cases f with
  | nil => exact .inl (by simpa using hp)
  | cons b f =>
    have hr := hr (by simp)
    subst hr
    unfold Item.FillOk at h2
    split at h2
    · have := h2 (b, false) (by simp [missing])
      cases this
    · rename_i hs
      refine .inr ⟨by simpa using hs, (b :: f).length, by simp, ?_⟩
      congr 1
      split at h2
      · rename_i hg
        rw [hg]
        obtain ⟨q, k, e⟩ := h2
        obtain ⟨rfl, e2⟩ := marks_inj e
        have := congrArg List.length e2
        rw [List.length_replicate] at this
        rw [e2]; simp
      · rename_i hg
        have hb : ∀ x ∈ b :: f, x = 0 := fun x hx => h2 (x, false) (by
          rw [List.mem_append]; right; exact List.mem_map.2 ⟨x, hx, rfl⟩) rfl
        have h0 : fillByte it.signed p = 0 := by
          rcases fillByte_cases it.signed p with ⟨h, -⟩ | ⟨-, h⟩
          · exact absurd h hg
          · exact h
        rw [h0]
        exact List.eq_replicate_iff.2 ⟨rfl, hb⟩

theorem PiecesM.taken : {its : List Item} → {cs : List MBytes} → {rest : Bytes} → PiecesM its cs → Feeds rest cs.flatten → TakenAs its rest cs.flatten.length
  | [], [], _, _, _ => rfl
  | it :: its, c :: cs, rest, h, hf => by
    rw [List.flatten_cons] at hf
    obtain ⟨f1, f2⟩ := hf.split
    refine ⟨c.bytes, cs.flatten.length, h.1.taken f1, ?_, by rw [bytes_length]; simp⟩
    rw [bytes_length]
    exact h.2.taken f2
  | [], _ :: _, _, h, _ => h.elim
  | _ :: _, [], _, h, _ => h.elim

theorem ReadAsM.taken {its : List Item} {m : MBytes} {rest : Bytes} (h : ReadAsM its m) (hf : Feeds rest m) : TakenAs its rest m.length := by
  obtain ⟨cs, p, rfl⟩ := h
  exact p.taken hf

theorem PiecesM.append : {a b : List Item} → {cs ds : List MBytes} → PiecesM a cs → PiecesM b ds → PiecesM (a ++ b) (cs ++ ds)
  | [], _, [], _, _, h2 => h2
  | _ :: _, _, _ :: _, _, h1, h2 => ⟨h1.1, PiecesM.append h1.2 h2⟩
  | [], _, _ :: _, _, h1, _ => h1.elim
  | _ :: _, _, [], _, h1, _ => h1.elim

theorem ReadAsM.nil : ReadAsM [] [] := ⟨[], trivial, rfl⟩

theorem ReadAsM.append {a b : List Item} {bs cs : MBytes} (h1 : ReadAsM a bs) (h2 : ReadAsM b cs) : ReadAsM (a ++ b) (bs ++ cs) := by
  obtain ⟨x, p1, rfl⟩ := h1
  obtain ⟨y, p2, rfl⟩ := h2
  exact ⟨x ++ y, p1.append p2, List.flatten_append⟩

theorem ReadAsM.cons {a : List Item} {l : List (List Item)} {bs cs : MBytes} (h1 : ReadAsM a bs) (h2 : ReadAsM l.flatten cs) :
    ReadAsM (List.flatten (a :: l)) (bs ++ cs) := h1.append h2

theorem ReadAsM.item {i : Item} {bs : MBytes} (h : i.AcceptsM bs) : ReadAsM [i] bs := ⟨[bs], ⟨h, trivial⟩, by simp⟩

theorem ReadAsM.requires {c : Prop} [Decidable c] {e : PyErr} : ReadAsM (Layout.requires c e) [] :=
  ReadAsM.item ⟨.inl rfl, by unfold Item.FillOk; simp [Item.strict, Item.signed, ZeroFilled]⟩

theorem ReadAsM.requiresCons {c : Prop} [Decidable c] {e : PyErr} {l : List (List Item)} {bs : MBytes} (h : ReadAsM l.flatten bs) :
    ReadAsM (List.flatten (Layout.requires c e :: l)) bs := ReadAsM.cons (bs := []) ReadAsM.requires h

theorem ReadAsM.last {a : List Item} {bs : MBytes} (h : ReadAsM a bs) : ReadAsM (List.flatten [a]) bs := by
  simpa using h

theorem ReadAsM.split : {a b : List Item} → {bs : MBytes} → ReadAsM (a ++ b) bs → ∃ b1 b2, ReadAsM a b1 ∧ ReadAsM b b2 ∧ bs = b1 ++ b2
  | [], _, bs, h => ⟨[], bs, ReadAsM.nil, h, rfl⟩
  | i :: a, b, bs, h => by
    obtain ⟨cs, hp, rfl⟩ := h
    cases cs with
    | nil => exact hp.elim
    | cons c cs =>
      obtain ⟨b1, b2, h1, h2, h3⟩ := ReadAsM.split (a := a) (b := b) ⟨cs, hp.2, rfl⟩
      obtain ⟨ds, h4, rfl⟩ := h1
      exact ⟨c ++ ds.flatten, b2, ⟨c :: ds, ⟨hp.1, h4⟩, rfl⟩, h2, by rw [List.flatten_cons, h3, List.append_assoc]⟩

theorem ReadAsM.single {i : Item} {bs : MBytes} (h : ReadAsM [i] bs) : i.AcceptsM bs := by
  obtain ⟨cs, hp, rfl⟩ := h
  match cs, hp with
  | [c], hp => simpa using hp.1

theorem ReadAsM.eachCons {f : α → List Item} {x : α} {l : List α} {bs cs : MBytes} (h1 : ReadAsM (f x) bs) (h2 : ReadAsM (Layout.each f l) cs) :
    ReadAsM (Layout.each f (x :: l)) (bs ++ cs) := h1.append h2

theorem ReadAsM.eachNil {f : α → List Item} : ReadAsM (Layout.each f []) [] := ReadAsM.nil

theorem ReadAsM.partIff {c c' : Prop} [Decidable c] [Decidable c'] {f : α → List Item} {o : Option α} {bs : MBytes}
    (h : ReadAsM (Layout.part c f o) bs) (hc : c ↔ c') : ReadAsM (Layout.part c' f o) bs := by
  have : Layout.part c' f o = Layout.part c f o := by
    unfold Layout.part
    by_cases h : c
    · rw [if_pos h, if_pos (hc.1 h)]
    · rw [if_neg h, if_neg (fun k => h (hc.2 k))]
  rw [this]; exact h

/-- Strict items that are there. -/
theorem Pieces.there : {its : List Item} → {cs : List Bytes} → Pieces its cs → (∀ it ∈ its, it.strict = true) → PiecesM its (cs.map Genie.there)
  | [], [], _, _ => trivial
  | it :: its, c :: cs, h, hs => ⟨⟨by rw [bytes_there]; exact h.1, by
      unfold Item.FillOk
      rw [if_pos (hs it List.mem_cons_self)]
      intro x hx
      obtain ⟨b, -, rfl⟩ := List.mem_map.1 hx
      rfl⟩, Pieces.there h.2 fun i hi => hs i (List.mem_cons_of_mem _ hi)⟩
  | [], _ :: _, h, _ => h.elim
  | _ :: _, [], h, _ => h.elim

theorem flatten_there (cs : List Bytes) : (cs.map there).flatten = there cs.flatten := by
  induction cs with
  | nil => rfl
  | cons c cs ih => rw [List.map_cons, List.flatten_cons, List.flatten_cons, there_append, ih]

theorem ReadAs.there {its : List Item} {bs : Bytes} (h : ReadAs its bs) (hs : ∀ it ∈ its, it.strict = true) : ReadAsM its (there bs) := by
  obtain ⟨cs, p, rfl⟩ := h
  exact ⟨_, p.there hs, flatten_there cs⟩

/-! ## the predicate -/

/-- Reading with `r` at version `v`: content and version are kept; the result satisfies `Q`; result and bytes read are related by `P`. -/
def Lax (v : Version) (r : Reader α) (Q : α → Prop) (P : α → MBytes → Prop) : Prop :=
  ∀ h : ByteHandler, h.version = v → ∀ a h', r h = .ok (a, h') →
    h'.version = v ∧ h'.content = h.content ∧ Q a ∧ ∃ m, Feeds (h.content.drop h.offset) m ∧ h'.offset = h.offset + m.length ∧ P a m

theorem Lax.bind {v : Version} {r : Reader α} {f : α → Reader β} {Q : α → Prop} {P : α → MBytes → Prop}
    {Q' : β → Prop} {P' : β → MBytes → Prop} (h1 : Lax v r Q P)
    (h2 : ∀ a, Q a → Lax v (f a) Q' (fun b bs2 => ∀ bs1, P a bs1 → P' b (bs1 ++ bs2))) : Lax v (r >>= f) Q' P' := by
  intro h hv b h'' hr
  have hb : (r >>= f) h = match r h with | .error e => .error e | .ok (a, h') => f a h' := rfl
  rw [hb] at hr
  cases hc : r h with
  | error e => rw [hc] at hr; cases hr
  | ok p =>
    obtain ⟨a, h'⟩ := p
    rw [hc] at hr
    obtain ⟨v1, c1, q1, m1, f1, o1, p1⟩ := h1 h hv a h' hc
    obtain ⟨v2, c2, q2, m2, f2, o2, p2⟩ := h2 a q1 h' v1 b h'' hr
    refine ⟨v2, c2.trans c1, q2, m1 ++ m2, f1.append ?_, by rw [o2, o1, List.length_append]; omega, p2 _ p1⟩
    rw [List.drop_drop, ← o1, ← c1]
    exact f2

theorem Lax.pure {v : Version} {a : α} {Q : α → Prop} {P : α → MBytes → Prop} (hq : Q a) (hp : P a []) :
    Lax v (pure a : Reader α) Q P := by
  intro h hv b h' hr
  cases hr
  exact ⟨hv, rfl, hq, [], Feeds.nil, rfl, hp⟩

theorem Lax.mono {v : Version} {r : Reader α} {Q Q' : α → Prop} {P P' : α → MBytes → Prop}
    (h : Lax v r Q P) (hq : ∀ a, Q a → Q' a) (hp : ∀ a bs, Q a → P a bs → P' a bs) : Lax v r Q' P' := by
  intro hd hv a h' hr
  obtain ⟨h1, h2, h3, m, h4, h5, h6⟩ := h hd hv a h' hr
  exact ⟨h1, h2, hq a h3, m, h4, h5, hp a _ h3 h6⟩

theorem Lax.raise {v : Version} {e : PyErr} {Q : α → Prop} {P : α → MBytes → Prop} : Lax v (raise e : Reader α) Q P := by
  intro hd hv a h' hr; cases hr

theorem Lax.getVersion {v : Version} {f : Version → Reader β} {Q : β → Prop} {P : β → MBytes → Prop}
    (h : Lax v (f v) Q P) : Lax v (Genie.getVersion >>= f) Q P := by
  intro hd hv
  have hb : (Genie.getVersion >>= f) hd = f v hd := by subst hv; rfl
  rw [hb]
  exact h hd hv

theorem Lax.noteLossy {v : Version} {b : Bool} {f : PUnit → Reader β} {Q : β → Prop} {P : β → MBytes → Prop}
    (h : Lax v (f ()) Q P) : Lax v (Genie.noteLossy b >>= f) Q P :=
  Lax.bind (Q := fun _ => True) (P := fun _ bs => bs = [])
    (by intro hd hv a h' hr; cases hr; exact ⟨hv, rfl, trivial, [], Feeds.nil, rfl, rfl⟩)
    fun _ _ => Lax.mono h (fun _ h => h) fun _ _ _ hp bs1 h1 => by subst h1; exact hp

theorem Lax.pureEq {v : Version} {a : α} : Lax v (Pure.pure a : Reader α) (fun b => b = a) (fun _ bs => bs = []) := Lax.pure rfl rfl

/-- A reader that consumes nothing. -/
theorem Lax.bind0 {v : Version} {r : Reader α} {f : α → Reader β} {Q : α → Prop}
    {Q' : β → Prop} {P' : β → MBytes → Prop} (h1 : Lax v r Q (fun _ bs => bs = [])) (h2 : ∀ a, Q a → Lax v (f a) Q' P') :
    Lax v (r >>= f) Q' P' :=
  Lax.bind h1 fun a ha => Lax.mono (h2 a ha) (fun _ h => h) fun _ _ _ hp bs1 h1 => by subst h1; exact hp

/-- Readers of a range of bytes. -/
theorem Lax.range {v : Version} {n : Nat} {f : Bytes → Reader α} {Q : α → Prop} {P : α → MBytes → Prop} (g : Bytes → Py α)
    (hf : ∀ c h, ∃ l, f c h = (g c).map fun a => (a, { h with lossy := l }))
    (h1 : ∀ c a, c.length = n → g c = .ok a → Q a ∧ P a (there c))
    (h2 : ∀ c a, c.length < n → g c = .ok a → Q a ∧ ∃ fl : Bytes, fl.length = n - c.length ∧ P a (there c ++ missing fl)) :
    Lax v (Genie.consumeRange n >>= f) Q P := by
  intro h hv a h' hr
  obtain ⟨l, e⟩ := hf (slice h.content h.offset (h.offset + n)) { h with
    offset := h.offset + n
    lossy := h.lossy || decide (0 < n ∧ h.content.length < h.offset + n) }
  have e2 : slice h.content h.offset (h.offset + n) = (h.content.drop h.offset).take n := by
    rw [slice_eq]
  have e3 : (Genie.consumeRange n >>= f) h = _ := e
  rw [e3, e2] at hr
  cases hc : g ((h.content.drop h.offset).take n) with
  | error e => rw [hc] at hr; cases hr
  | ok b =>
    rw [hc] at hr
    cases hr
    generalize h.content.drop h.offset = rest at *
    by_cases hn : n ≤ rest.length
    · have hl : (rest.take n).length = n := by rw [List.length_take]; omega
      obtain ⟨q, p⟩ := h1 _ a hl hc
      exact ⟨hv, rfl, q, _, ⟨rest.take n, [], by rw [missing_nil, List.append_nil], List.take_prefix _ _, by simp⟩, by simp only [there_length, hl], p⟩
    · rw [List.take_of_length_le (by omega)] at hc
      obtain ⟨q, fl, hl, p⟩ := h2 _ a (by omega) hc
      exact ⟨hv, rfl, q, _, ⟨rest, fl, rfl, List.prefix_refl _, fun _ => rfl⟩, by simp only [List.length_append, there_length, missing_length]; omega, p⟩

/-! ## integers -/

def SFilled (s : Bool) (m : MBytes) : Prop := if s = true then SignFilled m else ZeroFilled m

/-- The integer that these `w` bytes encode. -/
def IntReadM (w : Nat) (s : Bool) (i : Int) (m : MBytes) : Prop := IntRead w s i m.bytes ∧ SFilled s m

theorem IntReadM.int {w : Nat} {s : Bool} {i : Int} {m : MBytes} (h : IntReadM w s i m) : ReadAsM [.int w s i] m := by
  refine ReadAsM.item ⟨h.1.int.single, ?_⟩
  have := h.2
  unfold Item.FillOk
  cases s <;> simpa [Item.strict, Item.signed, SFilled] using this

theorem IntReadM.count {w : Nat} {s : Bool} {i : Int} {m : MBytes} (h : IntReadM w s i m) {n : Nat} (hn : n = i.toNat) :
    ReadAsM [.count w s n] m := by
  refine ReadAsM.item ⟨(h.1.count hn).single, ?_⟩
  have := h.2
  unfold Item.FillOk
  cases s <;> simpa [Item.strict, Item.signed, SFilled] using this

theorem zeroFilled_there (p : Bytes) : ZeroFilled (there p) := by
  intro x hx h
  obtain ⟨b, -, rfl⟩ := List.mem_map.1 hx
  cases h

theorem zeroFilled_zeros (p : Bytes) (k : Nat) : ZeroFilled (there p ++ missing (List.replicate k 0)) := by
  intro x hx h
  rcases List.mem_append.1 hx with hx | hx
  · exact zeroFilled_there p x hx h
  · obtain ⟨b, hb, rfl⟩ := List.mem_map.1 hx
    exact (List.mem_replicate.1 hb).2

theorem sFilled_fill (s : Bool) (p : Bytes) (k : Nat) : SFilled s (there p ++ missing (List.replicate k (fillByte s p))) := by
  unfold SFilled
  cases s with
  | true => exact ⟨p, k, rfl⟩
  | false =>
    rcases fillByte_cases false p with ⟨h, -⟩ | ⟨-, h⟩
    · cases h
    · rw [h]; exact zeroFilled_zeros p k

theorem Lax.int {v : Version} {n : Nat} {s : Bool} :
    Lax v (do let c ← Genie.consumeRange n; return Int_from_bytes c s) (fun _ => True) (IntReadM n s) := by
  refine Lax.range (fun c => .ok (intFromBytes c s)) (fun c h => ⟨h.lossy, rfl⟩) ?_ ?_
  · intro c a hc ha
    cases ha
    refine ⟨trivial, by rw [bytes_there]; exact ⟨hc, rfl⟩, ?_⟩
    have := sFilled_fill s c 0
    simpa [missing] using this
  · intro c a hc ha
    cases ha
    refine ⟨trivial, List.replicate (n - c.length) (fillByte s c), by simp, ?_, sFilled_fill s c _⟩
    rw [bytes_append, bytes_there, bytes_missing]
    exact ⟨by simp; omega, (intFromBytes_fill c s _).symm⟩

theorem Lax.int8 {v : Version} : Lax v readInt8 (fun _ => True) (IntReadM 1 false) := Lax.int
theorem Lax.int16 {v : Version} : Lax v (readInt16 true) (fun _ => True) (IntReadM 2 true) := Lax.int
theorem Lax.uint16 {v : Version} : Lax v (readInt16 false) (fun _ => True) (IntReadM 2 false) := Lax.int
theorem Lax.int32 {v : Version} : Lax v (readInt32 true) (fun _ => True) (IntReadM 4 true) := Lax.int
theorem Lax.uint32 {v : Version} : Lax v (readInt32 false) (fun _ => True) (IntReadM 4 false) := Lax.int

/-! ## floats -/

theorem note_liftPy_map {x : Py α} {b : Bool} (h : ByteHandler) :
    ∃ l, (Genie.noteLossy b >>= fun _ => Genie.liftPy x) h = x.map fun a => (a, { h with lossy := l }) := by
  cases x <;> exact ⟨h.lossy || b, rfl⟩

theorem Lax.float {v : Version} : Lax v readFloat (fun _ => True) (fun x bs => ReadAsM (Layout.f32 x) bs) := by
  refine Lax.range Float_from_bytes (fun c h => note_liftPy_map h) ?_ ?_
  · intro c a hc ha
    unfold Float_from_bytes unpackNativeF at ha
    rw [if_pos hc] at ha
    cases ha
    exact ⟨trivial, ReadAs.there (ReadAs.item (floatOfBytes_accepts hc)) (by
      intro it hi; rcases List.mem_singleton.1 hi with rfl; rfl)⟩
  · intro c a hc ha
    unfold Float_from_bytes unpackNativeF at ha
    rw [if_neg (by omega)] at ha
    cases ha

/-! ## texts -/

theorem String_from_bytes_zeros (c : Bytes) (j : Nat) : String_from_bytes (c ++ List.replicate j 0) = String_from_bytes c := by
  unfold String_from_bytes
  rw [rstripNul_append_replicate]

theorem Lax.textRange {v : Version} {n : Nat} {f : Bytes → Reader PyStr}
    (hf : ∀ c h, ∃ l, f c h = (String_from_bytes c).map fun a => (a, { h with lossy := l })) :
    Lax v (Genie.consumeRange n >>= f) (fun _ => True) (fun s m => m.length = n ∧ ZeroFilled m ∧ String_from_bytes m.bytes = .ok s) := by
  refine Lax.range String_from_bytes hf ?_ ?_
  · intro c a hc ha
    exact ⟨trivial, by rw [there_length]; exact hc, zeroFilled_there c, by rw [bytes_there]; exact ha⟩
  · intro c a hc ha
    refine ⟨trivial, List.replicate (n - c.length) 0, by simp, ?_, zeroFilled_zeros c _, ?_⟩
    · simp only [List.length_append, there_length, missing_length, List.length_replicate]; omega
    · rw [bytes_append, bytes_there, bytes_missing, String_from_bytes_zeros]; exact ha

theorem ZeroFilled.append {a b : MBytes} (h1 : ZeroFilled a) (h2 : ZeroFilled b) : ZeroFilled (a ++ b) := by
  intro x hx
  rcases List.mem_append.1 hx with hx | hx
  · exact h1 x hx
  · exact h2 x hx

theorem text_accepts {s : PyStr} {size : Int} {b4 b3 c : Bytes} (h4 : IntRead 2 false 0x0A60 b4) (h3 : IntRead 2 false size b3)
    (h2 : c.length = size.toNat) (hs : String_from_bytes c = .ok s) : (Item.text s).Accepts (b4 ++ (b3 ++ c)) := by
  obtain ⟨e1, e2⟩ := utf8_of_decode hs
  have w4 := h4.bytes
  have w3 : b3 = natLE 2 c.length := by
    rw [h2]
    have r : 0 ≤ size ∧ size < 65536 := by
      have := intFromBytes_range_unsigned b3
      rw [h3.1] at this
      rw [h3.2]; omega
    have := h3.bytes
    rw [show (size % (256 : Int) ^ 2).toNat = size.toNat by omega] at this
    exact this
  have hlen : c.length ≤ 65535 := by
    have := intFromBytes_range_unsigned b3
    rw [h3.1] at this
    rw [h2, h3.2]; omega
  obtain ⟨k, hk⟩ : ∃ k, c = rstripNul c ++ List.replicate k 0 := ⟨_, rstripNul_append c⟩
  have hc : c.length = utf8Len s + k := by
    have := congrArg List.length hk
    rw [List.length_append, List.length_replicate] at this
    omega
  rw [e1] at hk
  have hbs : b4 ++ (b3 ++ c) = natLE 2 0x0A60 ++ natLE 2 (utf8Len s + k) ++ Item.utf8 s ++ List.replicate k 0 := by
    rw [w3, hc, w4, hk]
    simp
  by_cases hz : k = 0
  · subst hz
    left
    rw [hbs]; simp [Item.bytes]
  · right
    exact ⟨k, by omega, by omega, hbs⟩

theorem Lax.debugString {v : Version} : Lax v readDebugString (fun _ => True) (fun s bs => ReadAsM (Layout.text s) bs) := by
  unfold readDebugString
  refine Lax.bind Lax.uint16 fun tmp _ => ?_
  split
  · exact Lax.raise
  · rename_i htmp
    refine Lax.bind Lax.uint16 fun size _ => ?_
    refine Lax.mono (Lax.textRange fun _ h => note_liftPy_map h) (fun _ h => h) ?_
    rintro s m2 - ⟨h2, z2, hs⟩ m3 h3 m4 h4
    have ht : tmp = 0x0A60 := by simpa using htmp
    subst ht
    refine ReadAsM.item ⟨?_, ?_⟩
    · rw [bytes_append, bytes_append]
      exact text_accepts h4.1 h3.1 (by rw [bytes_length]; exact h2) hs
    · exact ZeroFilled.append h4.2 (ZeroFilled.append h3.2 z2)

/-! ## loops -/

theorem Lax.repeatR {v : Version} {r : Reader α} {f : α → List Item} (n : Nat) {Q : α → Prop} {P : α → MBytes → Prop}
    (h : Lax v r Q P) (hp : ∀ x bs, P x bs → ReadAsM (f x) bs) :
    Lax v (Genie.repeatR r n) (fun l => l.length = n ∧ AllOf Q l) (fun l bs => ReadAsM (Layout.each f l) bs) := by
  induction n with
  | zero => exact Lax.pure ⟨rfl, by simp [AllOf]⟩ ReadAsM.nil
  | succ n ih =>
    refine Lax.bind h fun x hx => ?_
    refine Lax.bind ih fun l hl => ?_
    refine Lax.pure ⟨by simp [hl.1], ?_⟩ ?_
    · intro y hy
      rcases List.mem_cons.1 hy with rfl | hy
      · exact hx
      · exact hl.2 y hy
    · intro bs1 h1 bs2 h2
      rw [List.append_nil]
      exact (hp _ _ h2).append h1

theorem Lax.array {v : Version} {r : Reader α} {f : α → List Item} (n : Int) {b : Bool} {Q : α → Prop} {P : α → MBytes → Prop}
    (h : Lax v r Q P) (hp : ∀ x bs, P x bs → ReadAsM (f x) bs) :
    Lax v (readArray r n b) (fun l => l.length = n.toNat ∧ AllOf Q l) (fun l bs => ReadAsM (Layout.each f l) bs) := by
  unfold readArray
  exact Lax.noteLossy (Lax.repeatR n.toNat h hp)

theorem Lax.int8Array {v : Version} (n : Int) : Lax v (readInt8Array n) (fun l => l.length = n.toNat)
    (fun l bs => ReadAsM (Layout.each Layout.u8 l) bs) := Lax.mono (Lax.array n Lax.int8 fun _ _ => IntReadM.int) (fun _ h => h.1) fun _ _ _ h => h
theorem Lax.int16Array {v : Version} (n : Int) : Lax v (readInt16Array n) (fun l => l.length = n.toNat)
    (fun l bs => ReadAsM (Layout.each Layout.i16 l) bs) := Lax.mono (Lax.array n Lax.int16 fun _ _ => IntReadM.int) (fun _ h => h.1) fun _ _ _ h => h
theorem Lax.int32Array {v : Version} (n : Int) : Lax v (readInt32Array n) (fun l => l.length = n.toNat)
    (fun l bs => ReadAsM (Layout.each Layout.i32 l) bs) := Lax.mono (Lax.array n Lax.int32 fun _ _ => IntReadM.int) (fun _ h => h.1) fun _ _ _ h => h
theorem Lax.floatArray {v : Version} (n : Int) : Lax v (readFloatArray n) (fun l => l.length = n.toNat)
    (fun l bs => ReadAsM (Layout.each Layout.f32 l) bs) := Lax.mono (Lax.array n Lax.float fun _ _ h => h) (fun _ h => h.1) fun _ _ _ h => h

theorem Lax.class_ {v : Version} {r : Reader α} {Q : α → Prop} {P : α → MBytes → Prop} (h : Lax v r Q P) : Lax v (readClass r) Q P := h

theorem Lax.classArray {v : Version} {r : Reader α} {f : α → List Item} (n : Int) {b : Bool} {Q : α → Prop}
    (h : Lax v r Q (fun x bs => ReadAsM (f x) bs)) :
    Lax v (readClassArray r n b) (fun l => l.length = n.toNat) (fun l bs => ReadAsM (Layout.each f l) bs) :=
  Lax.mono (Lax.array n h fun _ _ h => h) (fun _ h => h.1) fun _ _ _ h => h

/-! ## a fixed number of elements -/

theorem Lax.int8Array2 {v : Version} :
    Lax v readInt8Array2 (fun l => l.length = 2) (fun l bs => ReadAsM (Layout.each Layout.u8 l) bs) := by
  unfold readInt8Array2
  refine Lax.bind Lax.int8 fun e0 _ => ?_
  refine Lax.bind Lax.int8 fun e1 _ => ?_
  refine Lax.pure rfl ?_
  intro b1 k1 b0 k0
  exact .eachCons k0.int (.eachCons k1.int ReadAsM.eachNil)

theorem Lax.int8Array3 {v : Version} :
    Lax v readInt8Array3 (fun l => l.length = 3) (fun l bs => ReadAsM (Layout.each Layout.u8 l) bs) := by
  unfold readInt8Array3
  refine Lax.bind Lax.int8 fun e0 _ => ?_
  refine Lax.bind Lax.int8 fun e1 _ => ?_
  refine Lax.bind Lax.int8 fun e2 _ => ?_
  refine Lax.pure rfl ?_
  intro b2 k2 b1 k1 b0 k0
  exact .eachCons k0.int (.eachCons k1.int (.eachCons k2.int ReadAsM.eachNil))

theorem Lax.int8Array5 {v : Version} :
    Lax v readInt8Array5 (fun l => l.length = 5) (fun l bs => ReadAsM (Layout.each Layout.u8 l) bs) := by
  unfold readInt8Array5
  refine Lax.bind Lax.int8 fun e0 _ => ?_
  refine Lax.bind Lax.int8 fun e1 _ => ?_
  refine Lax.bind Lax.int8 fun e2 _ => ?_
  refine Lax.bind Lax.int8 fun e3 _ => ?_
  refine Lax.bind Lax.int8 fun e4 _ => ?_
  refine Lax.pure rfl ?_
  intro b4 k4 b3 k3 b2 k2 b1 k1 b0 k0
  exact .eachCons k0.int (.eachCons k1.int (.eachCons k2.int (.eachCons k3.int (.eachCons k4.int ReadAsM.eachNil))))

theorem Lax.int8Array6 {v : Version} :
    Lax v readInt8Array6 (fun l => l.length = 6) (fun l bs => ReadAsM (Layout.each Layout.u8 l) bs) := by
  unfold readInt8Array6
  refine Lax.bind Lax.int8 fun e0 _ => ?_
  refine Lax.bind Lax.int8 fun e1 _ => ?_
  refine Lax.bind Lax.int8 fun e2 _ => ?_
  refine Lax.bind Lax.int8 fun e3 _ => ?_
  refine Lax.bind Lax.int8 fun e4 _ => ?_
  refine Lax.bind Lax.int8 fun e5 _ => ?_
  refine Lax.pure rfl ?_
  intro b5 k5 b4 k4 b3 k3 b2 k2 b1 k1 b0 k0
  exact .eachCons k0.int (.eachCons k1.int (.eachCons k2.int (.eachCons k3.int (.eachCons k4.int (.eachCons k5.int ReadAsM.eachNil)))))

theorem Lax.int8Array10 {v : Version} :
    Lax v readInt8Array10 (fun l => l.length = 10) (fun l bs => ReadAsM (Layout.each Layout.u8 l) bs) := by
  unfold readInt8Array10
  refine Lax.bind Lax.int8 fun e0 _ => ?_
  refine Lax.bind Lax.int8 fun e1 _ => ?_
  refine Lax.bind Lax.int8 fun e2 _ => ?_
  refine Lax.bind Lax.int8 fun e3 _ => ?_
  refine Lax.bind Lax.int8 fun e4 _ => ?_
  refine Lax.bind Lax.int8 fun e5 _ => ?_
  refine Lax.bind Lax.int8 fun e6 _ => ?_
  refine Lax.bind Lax.int8 fun e7 _ => ?_
  refine Lax.bind Lax.int8 fun e8 _ => ?_
  refine Lax.bind Lax.int8 fun e9 _ => ?_
  refine Lax.pure rfl ?_
  intro b9 k9 b8 k8 b7 k7 b6 k6 b5 k5 b4 k4 b3 k3 b2 k2 b1 k1 b0 k0
  exact .eachCons k0.int (.eachCons k1.int (.eachCons k2.int (.eachCons k3.int (.eachCons k4.int (.eachCons k5.int (.eachCons k6.int (.eachCons k7.int (.eachCons k8.int (.eachCons k9.int ReadAsM.eachNil)))))))))

theorem Lax.int16Array2 {v : Version} :
    Lax v readInt16Array2 (fun l => l.length = 2) (fun l bs => ReadAsM (Layout.each Layout.i16 l) bs) := by
  unfold readInt16Array2
  refine Lax.bind Lax.int16 fun e0 _ => ?_
  refine Lax.bind Lax.int16 fun e1 _ => ?_
  refine Lax.pure rfl ?_
  intro b1 k1 b0 k0
  exact .eachCons k0.int (.eachCons k1.int ReadAsM.eachNil)

theorem Lax.int16Array3 {v : Version} :
    Lax v readInt16Array3 (fun l => l.length = 3) (fun l bs => ReadAsM (Layout.each Layout.i16 l) bs) := by
  unfold readInt16Array3
  refine Lax.bind Lax.int16 fun e0 _ => ?_
  refine Lax.bind Lax.int16 fun e1 _ => ?_
  refine Lax.bind Lax.int16 fun e2 _ => ?_
  refine Lax.pure rfl ?_
  intro b2 k2 b1 k1 b0 k0
  exact .eachCons k0.int (.eachCons k1.int (.eachCons k2.int ReadAsM.eachNil))

theorem Lax.int16Array4 {v : Version} :
    Lax v readInt16Array4 (fun l => l.length = 4) (fun l bs => ReadAsM (Layout.each Layout.i16 l) bs) := by
  unfold readInt16Array4
  refine Lax.bind Lax.int16 fun e0 _ => ?_
  refine Lax.bind Lax.int16 fun e1 _ => ?_
  refine Lax.bind Lax.int16 fun e2 _ => ?_
  refine Lax.bind Lax.int16 fun e3 _ => ?_
  refine Lax.pure rfl ?_
  intro b3 k3 b2 k2 b1 k1 b0 k0
  exact .eachCons k0.int (.eachCons k1.int (.eachCons k2.int (.eachCons k3.int ReadAsM.eachNil)))

theorem Lax.int16Array6 {v : Version} :
    Lax v readInt16Array6 (fun l => l.length = 6) (fun l bs => ReadAsM (Layout.each Layout.i16 l) bs) := by
  unfold readInt16Array6
  refine Lax.bind Lax.int16 fun e0 _ => ?_
  refine Lax.bind Lax.int16 fun e1 _ => ?_
  refine Lax.bind Lax.int16 fun e2 _ => ?_
  refine Lax.bind Lax.int16 fun e3 _ => ?_
  refine Lax.bind Lax.int16 fun e4 _ => ?_
  refine Lax.bind Lax.int16 fun e5 _ => ?_
  refine Lax.pure rfl ?_
  intro b5 k5 b4 k4 b3 k3 b2 k2 b1 k1 b0 k0
  exact .eachCons k0.int (.eachCons k1.int (.eachCons k2.int (.eachCons k3.int (.eachCons k4.int (.eachCons k5.int ReadAsM.eachNil)))))

theorem Lax.int32Array10 {v : Version} :
    Lax v readInt32Array10 (fun l => l.length = 10) (fun l bs => ReadAsM (Layout.each Layout.i32 l) bs) := by
  unfold readInt32Array10
  refine Lax.bind Lax.int32 fun e0 _ => ?_
  refine Lax.bind Lax.int32 fun e1 _ => ?_
  refine Lax.bind Lax.int32 fun e2 _ => ?_
  refine Lax.bind Lax.int32 fun e3 _ => ?_
  refine Lax.bind Lax.int32 fun e4 _ => ?_
  refine Lax.bind Lax.int32 fun e5 _ => ?_
  refine Lax.bind Lax.int32 fun e6 _ => ?_
  refine Lax.bind Lax.int32 fun e7 _ => ?_
  refine Lax.bind Lax.int32 fun e8 _ => ?_
  refine Lax.bind Lax.int32 fun e9 _ => ?_
  refine Lax.pure rfl ?_
  intro b9 k9 b8 k8 b7 k7 b6 k6 b5 k5 b4 k4 b3 k3 b2 k2 b1 k1 b0 k0
  exact .eachCons k0.int (.eachCons k1.int (.eachCons k2.int (.eachCons k3.int (.eachCons k4.int (.eachCons k5.int (.eachCons k6.int (.eachCons k7.int (.eachCons k8.int (.eachCons k9.int ReadAsM.eachNil)))))))))

theorem Lax.floatArray2 {v : Version} :
    Lax v readFloatArray2 (fun l => l.length = 2) (fun l bs => ReadAsM (Layout.each Layout.f32 l) bs) := by
  unfold readFloatArray2
  refine Lax.bind Lax.float fun e0 _ => ?_
  refine Lax.bind Lax.float fun e1 _ => ?_
  refine Lax.pure rfl ?_
  intro b1 k1 b0 k0
  exact .eachCons k0 (.eachCons k1 ReadAsM.eachNil)

theorem Lax.floatArray3 {v : Version} :
    Lax v readFloatArray3 (fun l => l.length = 3) (fun l bs => ReadAsM (Layout.each Layout.f32 l) bs) := by
  unfold readFloatArray3
  refine Lax.bind Lax.float fun e0 _ => ?_
  refine Lax.bind Lax.float fun e1 _ => ?_
  refine Lax.bind Lax.float fun e2 _ => ?_
  refine Lax.pure rfl ?_
  intro b2 k2 b1 k1 b0 k0
  exact .eachCons k0 (.eachCons k1 (.eachCons k2 ReadAsM.eachNil))

theorem Lax.classArray3 {v : Version} {r : Reader α} {f : α → List Item} {Q : α → Prop} (h : Lax v r Q (fun x bs => ReadAsM (f x) bs)) :
    Lax v (readClassArray3 r) (fun l => l.length = 3) (fun l bs => ReadAsM (Layout.each f l) bs) := by
  unfold readClassArray3
  refine Lax.bind h fun e0 _ => ?_
  refine Lax.bind h fun e1 _ => ?_
  refine Lax.bind h fun e2 _ => ?_
  refine Lax.pure rfl ?_
  intro b2 k2 b1 k1 b0 k0
  exact .eachCons k0 (.eachCons k1 (.eachCons k2 ReadAsM.eachNil))

theorem Lax.classArray4 {v : Version} {r : Reader α} {f : α → List Item} {Q : α → Prop} (h : Lax v r Q (fun x bs => ReadAsM (f x) bs)) :
    Lax v (readClassArray4 r) (fun l => l.length = 4) (fun l bs => ReadAsM (Layout.each f l) bs) := by
  unfold readClassArray4
  refine Lax.bind h fun e0 _ => ?_
  refine Lax.bind h fun e1 _ => ?_
  refine Lax.bind h fun e2 _ => ?_
  refine Lax.bind h fun e3 _ => ?_
  refine Lax.pure rfl ?_
  intro b3 k3 b2 k2 b1 k1 b0 k0
  exact .eachCons k0 (.eachCons k1 (.eachCons k2 (.eachCons k3 ReadAsM.eachNil)))

/-! ## optional parts -/

theorem Lax.readIf {v : Version} {c : Prop} [Decidable c] {r : Reader α} {f : α → List Item} {Q : α → Prop}
    (h : Lax v r Q (fun x bs => ReadAsM (f x) bs)) :
    Lax v (Genie.readIf c r) (fun o => (c ↔ o.isSome = true) ∧ IfSome Q o) (fun o bs => ReadAsM (Layout.part c f o) bs) := by
  unfold Genie.readIf Layout.part
  by_cases hc : c
  · simp only [if_pos hc]
    refine Lax.bind h fun a ha => Lax.pure ⟨by simp [hc], ?_⟩ ?_
    · rintro b ⟨⟩; exact ha
    · intro bs hbs; simpa using hbs
  · simp only [if_neg hc]
    exact Lax.pure ⟨by simp [hc], by rintro b ⟨⟩⟩ ReadAsM.nil


/-! ## slot arrays -/

theorem Lax.pointersFrom {v : Version} {r : Reader α} {f : α → List Item} {Q : α → Prop}
    (h : Lax v r Q (fun x bs => ReadAsM (f x) bs)) (ps : List Int) (pre : List Int) :
    Lax v (readPointersFrom r (pre ++ ps) pre.length ps.length)
      (fun l => l.map Option.isSome = ps.map fun p => decide (p ≠ 0)) (fun l bs => ReadAsM (Layout.eachPresent f l) bs) := by
  induction ps generalizing pre with
  | nil => exact Lax.pure rfl ReadAsM.nil
  | cons p ps ih =>
    have ih' := ih (pre ++ [p])
    have e1 : pre ++ [p] ++ ps = pre ++ (p :: ps) := by simp
    have e2 : (pre ++ [p]).length = pre.length + 1 := by simp
    rw [e1, e2] at ih'
    have e3 : (pre ++ p :: ps)[pre.length]? = some p := by simp
    rw [List.length_cons, readPointersFrom, e3]
    refine Lax.noteLossy ?_
    refine Lax.bind (Lax.readIf h) fun o ho => ?_
    refine Lax.bind ih' fun l hl => ?_
    refine Lax.pure ?_ ?_
    · rw [List.map_cons, List.map_cons, hl]
      congr 1
      rw [Bool.eq_iff_iff, ← ho.1, decide_eq_true_iff]
    · intro bs1 h1 bs2 h2
      rw [List.append_nil]
      cases o with
      | none =>
        have hp : ¬ p ≠ 0 := by have := ho.1; simpa using this
        rw [Layout.part, if_neg hp] at h2
        have := h2.append h1
        simpa [Layout.eachPresent] using this
      | some x =>
        have hp : p ≠ 0 := ho.1.2 rfl
        rw [Layout.part, if_pos hp] at h2
        exact h2.append h1

theorem Lax.classArrayWithPointers {v : Version} {r : Reader α} {f : α → List Item} {Q : α → Prop} {n : Int} {ps : List Int}
    (hn : ps.length = n.toNat) (h : Lax v r Q (fun x bs => ReadAsM (f x) bs)) :
    Lax v (readClassArrayWithPointers r n ps) (fun l => l.map Option.isSome = ps.map fun p => decide (p ≠ 0))
      (fun l bs => ReadAsM (Layout.eachPresent f l) bs) := by
  have := Lax.pointersFrom h ps []
  rw [readClassArrayWithPointers, ← hn]
  simpa using this


/-! ## struct-packed blocks -/

/-- What is known about the result of the reader in any case. -/
theorem Lax.with_ {v : Version} {r : Reader α} {Q Q' : α → Prop} {P : α → MBytes → Prop} {P' : α → Bytes → Prop} (h : Lax v r Q P) (hg : Good v r Q' P') :
    Lax v r Q' P := by
  intro hd hv a h' hr
  obtain ⟨h1, h2, -, h5⟩ := h hd hv a h' hr
  refine ⟨h1, h2, ?_, h5⟩
  rcases hg hd hv with ⟨e, he, -⟩ | ⟨b, m, l, hb, s⟩
  · rw [he] at hr; cases hr
  · rw [hb] at hr; cases hr; exact s.post

theorem pointers_readAsM {l : List (Option α)} {ps : List Int} {bs : MBytes} (h : ReadAsM (Layout.each Layout.i32 ps) bs)
    (hp : AllOf IsI32 ps) (he : l.map Option.isSome = ps.map fun p => decide (p ≠ 0)) : ReadAsM (Layout.pointers l) bs := by
  induction ps generalizing l bs with
  | nil =>
    obtain rfl : l = [] := by simpa using he
    exact h
  | cons p ps ih =>
    match l, he with
    | o :: l, he =>
      simp only [List.map_cons, List.cons.injEq] at he
      obtain ⟨b1, b2, h1, h2, rfl⟩ := ReadAsM.split (a := Layout.i32 p) (b := Layout.each Layout.i32 ps) h
      refine ReadAsM.append (a := [.slot o.isSome]) (b := Layout.pointers l) (ReadAsM.item ?_)
        (ih h2 (fun x hx => hp x (List.mem_cons_of_mem _ hx)) he.2)
      rw [he.1]
      obtain ⟨k1, k2⟩ := h1.single
      exact ⟨slot_accepts k1 (hp p List.mem_cons_self), k2⟩

/-- The pointers of a slot array. -/
theorem Lax.pointers {v : Version} (n : Int) : Lax v (readInt32Array n) (fun l => l.length = n.toNat)
    (fun l bs => ReadAsM (Layout.each Layout.i32 l) bs ∧ AllOf IsI32 l) := by
  intro h hv a h' hr
  obtain ⟨h1, h2, h3, m, h4, h5, h6⟩ := Lax.int32Array n h hv a h' hr
  refine ⟨h1, h2, h3, m, h4, h5, h6, ?_⟩
  rcases Good.int32Array n h hv with ⟨e, he, -⟩ | ⟨b, m, l, hb, s⟩
  · rw [he] at hr; cases hr
  · rw [hb] at hr; cases hr; exact s.post.2

/-! ## struct-packed blocks -/

theorem zipWith_packed_strict (cs : List Code) (vs : List Val) : ∀ it ∈ List.zipWith Item.packed cs vs, it.strict = true := by
  induction cs generalizing vs with
  | nil => simp
  | cons c cs ih =>
    cases vs with
    | nil => simp
    | cons v vs =>
      intro it hi
      rcases List.mem_cons.1 (by simpa using hi : it ∈ Item.packed c v :: List.zipWith Item.packed cs vs) with rfl | hi
      · rfl
      · exact ih vs it hi

/-- The bytes of a block of values, whose number is right. -/
theorem Lax.unpack {v : Version} {fmt : String} {n : Nat} {cs : List Code} (hf : parseFmt fmt = some cs) (hn : codesSize cs = n) :
    Lax v (unpackFrom fmt n) (Matches cs) (fun vs bs => ∀ fmt', Layout.codes fmt' = cs → ReadAsM (Layout.block fmt' vs) bs) := by
  have key : ∀ c vs, structUnpack fmt c = .ok vs → Matches cs vs ∧
      ∀ fmt', Layout.codes fmt' = cs → ReadAsM (Layout.block fmt' vs) (there c) := by
    intro c vs hvs
    simp only [structUnpack, hf] at hvs
    split at hvs
    · rename_i hl
      simp only [Except.ok.injEq] at hvs
      subst hvs
      have m1 := (packCodes_unpackCodes hl).1
      refine ⟨m1, ?_⟩
      intro fmt' he
      rw [Layout.block, he]
      rw [if_pos (packCodes_of_matches m1).1]
      exact ReadAsM.append (bs := []) ReadAsM.requires ((unpackCodes_readAs hl).there (zipWith_packed_strict _ _))
    · cases hvs
  refine Lax.range (structUnpack fmt) (fun c h => note_liftPy_map h) (fun c vs _ h => key c vs h) ?_
  intro c vs hc h
  exfalso
  simp only [structUnpack, hf] at h
  rw [if_neg (by omega)] at h
  cases h

end Genie
