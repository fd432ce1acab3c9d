import Verif.Proof.Pieces
import Verif.Proof.Lax
import Verif.Proof.PiecesExact
import Verif.Proof.Records.Sizes
/-!
# Whatever is accepted for the items is read

`TakesR v r its R`: at version `v`, `r` reads whatever is taken as the items `its` (`TakenAs`), wherever it occurs, even where the data ends,
consumes as many bytes, and returns a value that satisfies `R`.
-/

namespace Genie

/-- Where the data goes on with `rest`, `r` reads `n` bytes (there or not); the result satisfies `R`. -/
def FetchAt (v : Version) (r : Reader α) (rest : Bytes) (n : Nat) (R : α → Prop) : Prop :=
  ∀ h : ByteHandler, h.version = v → h.content.drop h.offset = rest →
    ∃ a l, R a ∧ r h = .ok (a, { h with offset := h.offset + n, lossy := l })

/-- `r` reads nothing. -/
def Fetch (v : Version) (r : Reader α) (R : α → Prop) : Prop := ∀ rest, FetchAt v r rest 0 R

def TakesR (v : Version) (r : Reader α) (its : List Item) (R : α → Prop) : Prop := ∀ rest n, TakenAs its rest n → FetchAt v r rest n R

abbrev Takes (v : Version) (r : Reader α) (its : List Item) (a : α) : Prop := TakesR v r its (fun b => b = a)

theorem FetchAt.bind {v : Version} {r : Reader α} {f : α → Reader β} {rest : Bytes} {n m : Nat} {R : α → Prop} {S : β → Prop}
    (h1 : FetchAt v r rest n R) (h2 : ∀ a, R a → FetchAt v (f a) (rest.drop n) m S) : FetchAt v (r >>= f) rest (n + m) S := by
  intro h hv hp
  have hb : (r >>= f) h = match r h with | .error e => .error e | .ok (a, h') => f a h' := rfl
  obtain ⟨a, l, ra, ea⟩ := h1 h hv hp
  obtain ⟨b, l', sb, eb⟩ := h2 a ra { h with offset := h.offset + n, lossy := l } hv (by rw [← hp, List.drop_drop])
  refine ⟨b, l', sb, ?_⟩
  rw [hb, ea]
  simp only
  rw [eb]
  simp [Nat.add_assoc]

theorem Fetch.pure {v : Version} {a : α} {R : α → Prop} (h : R a) : Fetch v (Pure.pure a : Reader α) R :=
  fun _ hd _ _ => ⟨a, hd.lossy, h, rfl⟩

theorem FetchAt.mono {v : Version} {r : Reader α} {rest : Bytes} {n : Nat} {R S : α → Prop} (h : FetchAt v r rest n R) (hi : ∀ a, R a → S a) :
    FetchAt v r rest n S := by
  intro hd hv hp
  obtain ⟨a, l, ra, ea⟩ := h hd hv hp
  exact ⟨a, l, hi a ra, ea⟩

theorem Fetch.noteLossy {v : Version} {b : Bool} : Fetch v (noteLossy b) (fun _ => True) :=
  fun _ hd _ _ => ⟨(), hd.lossy || b, trivial, rfl⟩

theorem Fetch.liftPy {v : Version} {x : Py α} {a : α} (h : x = .ok a) : Fetch v (liftPy x) (fun b => b = a) := by
  subst h
  exact fun _ hd _ _ => ⟨a, hd.lossy, rfl, rfl⟩

theorem FetchAt.consumeRange {v : Version} {rest : Bytes} {n : Nat} : FetchAt v (consumeRange n) rest n (fun b => b = rest.take n) := by
  intro h hv hp
  refine ⟨slice h.content h.offset (h.offset + n), _, ?_, rfl⟩
  rw [← hp]
  unfold slice
  rw [List.drop_take]
  congr
  omega

theorem Fetch.bind {v : Version} {r : Reader α} {f : α → Reader β} {R : α → Prop} {S : β → Prop}
    (h1 : Fetch v r R) (h2 : ∀ a, R a → Fetch v (f a) S) : Fetch v (r >>= f) S :=
  fun rest => (h1 rest).bind (m := 0) fun a ha => h2 a ha _

/-- A reader of a range of bytes. -/
theorem FetchAt.range {v : Version} {f : Bytes → Reader β} {rest : Bytes} {n : Nat} {S : β → Prop} (h : Fetch v (f (rest.take n)) S) :
    FetchAt v (Genie.consumeRange n >>= f) rest n S :=
  FetchAt.consumeRange.bind (m := 0) (by rintro _ rfl; exact h _)

theorem TakesR.mono {v : Version} {r : Reader α} {its : List Item} {R S : α → Prop} (h : TakesR v r its R) (hi : ∀ a, R a → S a) : TakesR v r its S :=
  fun rest n hb => (h rest n hb).mono hi

theorem TakesR.bind {v : Version} {r : Reader α} {f : α → Reader β} {a : List Item} {l : List (List Item)} {R : α → Prop} {S : β → Prop}
    (h1 : TakesR v r a R) (h2 : ∀ x, R x → TakesR v (f x) l.flatten S) : TakesR v (r >>= f) (a :: l).flatten S := by
  intro rest n hb
  rw [List.flatten_cons] at hb
  obtain ⟨n1, n2, r1, r2, rfl⟩ := hb.split
  exact (h1 rest n1 r1).bind fun x hx => h2 x hx _ n2 r2

theorem Takes.bind {v : Version} {r : Reader α} {f : α → Reader β} {a : List Item} {l : List (List Item)} {x : α} {S : β → Prop}
    (h1 : Takes v r a x) (h2 : TakesR v (f x) l.flatten S) : TakesR v (r >>= f) (a :: l).flatten S :=
  TakesR.bind h1 (by rintro _ rfl; exact h2)

theorem Takes.pure {v : Version} {a : α} {R : α → Prop} (h : R a) : TakesR v (Pure.pure a : Reader α) (List.flatten []) R := by
  intro rest n hb
  have : n = 0 := hb
  subst this
  exact Fetch.pure h rest

theorem Takes.pureNil {v : Version} {a : α} {R : α → Prop} (h : R a) : TakesR v (Pure.pure a : Reader α) [] R := Takes.pure h

theorem Takes.bind0 {v : Version} {r : Reader α} {f : α → Reader β} {its : List Item} {R : α → Prop} {S : β → Prop}
    (h1 : Fetch v r R) (h2 : ∀ x, R x → TakesR v (f x) its S) : TakesR v (r >>= f) its S := by
  intro rest n hb
  have := (h1 rest).bind (m := n) fun x hx => h2 x hx _ n (by simpa using hb)
  simpa using this

theorem Takes.getVersion {v : Version} {f : Version → Reader β} {its : List Item} {S : β → Prop} (h : TakesR v (f v) its S) :
    TakesR v (Genie.getVersion >>= f) its S :=
  Takes.bind0 (R := fun w => w = v) (fun _ hd hv _ => ⟨v, hd.lossy, rfl, by subst hv; rfl⟩) (by rintro _ rfl; exact h)

theorem Takes.noteLossy {v : Version} {b : Bool} {f : PUnit → Reader β} {its : List Item} {S : β → Prop} (h : TakesR v (f ⟨⟩) its S) :
    TakesR v (Genie.noteLossy b >>= f) its S := Takes.bind0 Fetch.noteLossy fun _ _ => h

theorem TakesR.map {v : Version} {r : Reader α} {f : α → Reader β} {its : List Item} {R : α → Prop} {S : β → Prop}
    (h1 : TakesR v r its R) (h2 : ∀ x, R x → Fetch v (f x) S) : TakesR v (r >>= f) its S := by
  intro rest n hb
  exact (h1 rest n hb).bind (m := 0) fun x hx => h2 x hx _

theorem Takes.map {v : Version} {r : Reader α} {f : α → Reader β} {its : List Item} {x : α} {S : β → Prop}
    (h1 : Takes v r its x) (h2 : Fetch v (f x) S) : TakesR v (r >>= f) its S :=
  TakesR.map h1 (by rintro _ rfl; exact h2)

theorem TakesR.last {v : Version} {r : Reader α} {its : List Item} {R : α → Prop} (h : TakesR v r its R) : TakesR v r (List.flatten [its]) R := by
  simpa using h

theorem taken_requires {c : Prop} [Decidable c] {e : PyErr} {rest : Bytes} {n : Nat} (h : TakenAs (Layout.requires c e) rest n) : n = 0 := by
  obtain ⟨b, ⟨h1 | h1, -⟩, rfl⟩ := TakenAs.single h
  · rw [h1]; rfl
  · exact h1.elim

theorem TakesR.requires {v : Version} {r : Reader α} {c : Prop} [Decidable c] {e : PyErr} {l : List (List Item)} {R : α → Prop}
    (h : TakesR v r l.flatten R) : TakesR v r (Layout.requires c e :: l).flatten R := by
  intro rest n hb
  rw [List.flatten_cons] at hb
  obtain ⟨n1, n2, r1, r2, rfl⟩ := hb.split
  rw [taken_requires r1] at r2 ⊢
  simpa using h rest n2 (by simpa using r2)

/-! ## integers -/

/-- Items that are read as an integer. -/
theorem TakesR.intItem {v : Version} {w : Nat} {s : Bool} {it : Item} {R : Int → Prop} (hi : ∀ c, it.Accepts c → c.length = w ∧ R (intFromBytes c s))
    (hf : it.strict = true ∨ it.signed = s) :
    TakesR v (do let c ← Genie.consumeRange w; return Int_from_bytes c s) [it] R := by
  intro rest n hb
  obtain ⟨c, ⟨ha, hc⟩, rfl⟩ := hb.single
  obtain ⟨hl, hr⟩ := hi c ha
  rw [hl]
  refine FetchAt.range (Fetch.pure ?_)
  rcases hc with hc | ⟨hs, k, hk, rfl⟩
  · rw [← hl, ← List.prefix_iff_eq_take.1 hc]; exact hr
  · have hf : it.signed = s := by
      rcases hf with hf | hf
      · rw [hs] at hf; cases hf
      · exact hf
    rw [List.length_append, List.length_replicate] at hl
    rw [List.take_of_length_le (by omega)]
    unfold Int_from_bytes
    rw [← intFromBytes_fill rest s k, ← hf]
    rw [hf]
    rw [hf] at hr
    exact hr

theorem readAs_nil {bs : Bytes} (h : ReadAs [] bs) : bs = [] := by
  obtain ⟨cs, h1, rfl⟩ := h
  match cs, h1 with
  | [], _ => rfl

theorem readAs_requires {c : Prop} [Decidable c] {e : PyErr} {bs : Bytes} (h : ReadAs (Layout.requires c e) bs) : bs = [] := by
  rcases h.single with h | h
  · exact h
  · exact h.elim

theorem pieces_exact {its : List Item} {bs : Bytes} (h : ReadAs its bs) (hn : ∀ it ∈ its, ∀ c, ¬ it.Odd c) : bs = layoutBytes its := by
  obtain ⟨cs, h1, rfl⟩ := h
  exact h1.exact_iff.2 fun p hp => hn p.1 (List.of_mem_zip hp).1 p.2


theorem int_accepted {w : Nat} {s : Bool} {i : Int} (hi : FitsInt w s i) {c : Bytes} (h : (Item.int w s i).Accepts c) :
    c.length = w ∧ intFromBytes c s = i := by
  rcases h with rfl | h
  · obtain ⟨bs, e, e2⟩ : ∃ bs, intToBytes i w s = .ok bs ∧ intFromBytes bs s = i := by
      cases s with
      | true => exact intToBytes_signed_ok (by simpa [FitsInt] using hi)
      | false => exact intToBytes_unsigned_ok (by simpa [FitsInt] using hi)
    have e' := e
    rw [intToBytes_eq, if_pos hi] at e'
    rw [Item.bytes, Except.ok.inj e']
    exact ⟨intToBytes_length e, e2⟩
  · exact h.elim

theorem Takes.intFits {v : Version} {w : Nat} {s : Bool} {i : Int} (h : FitsInt w s i) :
    Takes v (do let c ← Genie.consumeRange w; return Int_from_bytes c s) [.int w s i] i :=
  TakesR.intItem (fun _ hc => int_accepted h hc) (.inr (by cases s <;> rfl))

theorem Takes.int8 {v : Version} {i : Int} (h : IsU8 i) : Takes v readInt8 (Layout.u8 i) i := Takes.intFits (by unfold IsU8 at h; simp [FitsInt]; omega)
theorem Takes.int16 {v : Version} {i : Int} (h : IsI16 i) : Takes v (readInt16 true) (Layout.i16 i) i := Takes.intFits (by unfold IsI16 at h; simp [FitsInt]; omega)
theorem Takes.int32 {v : Version} {i : Int} (h : IsI32 i) : Takes v (readInt32 true) (Layout.i32 i) i := Takes.intFits (by unfold IsI32 at h; simp [FitsInt]; omega)
theorem Takes.uint32 {v : Version} {i : Int} (h : IsU32 i) : Takes v (readInt32 false) (Layout.u32 i) i := Takes.intFits (by unfold IsU32 at h; simp [FitsInt]; omega)

end Genie
