import Verif.Model.Optimized
import Verif.Spec.Optimized
import Verif.Proof.Completed
/-!
# `OMode r rO`: the reader `r` and the same reader without `assert`
-/

namespace Genie

theorem Mended.refl : (bs : Bytes) → Mended bs bs
  | [] => .nil
  | b :: bs => .keep b (Mended.refl bs)

theorem Mended.append {a b c d : Bytes} (h1 : Mended a b) (h2 : Mended c d) : Mended (a ++ c) (b ++ d) := by
  induction h1 with
  | nil => exact h2
  | keep x _ ih => exact .keep x ih
  | marker x y _ ih => exact .marker x y ih

theorem Mended.length {a b : Bytes} (h : Mended a b) : b.length = a.length := by
  induction h with
  | nil => rfl
  | keep x _ ih => simp [ih]
  | marker x y _ ih => simp [ih]

structure OMode (r rO : Reader α) : Prop where
  /-- no difference, except where an assertion fails -/
  agree : ∀ h, r h = .error .assertionError ∨ rO h = r h
  /-- what is read is what is read of repaired data -/
  mend : ∀ h a h', rO h = .ok (a, h') → ∃ bs cs v' l', FilledFrom (h.content.drop h.offset) bs ∧ Mended bs cs ∧
    h' = { h with offset := h.offset + bs.length, version := v', lossy := l' } ∧
    ∀ g : ByteHandler, g.version = h.version → cs <+: g.content.drop g.offset →
      ∃ l, r g = .ok (a, { g with offset := g.offset + cs.length, version := v', lossy := l })
  /-- no `AssertionError` -/
  quiet : ∀ h, rO h ≠ .error .assertionError

/-- A reader without assertions. -/
theorem OMode.same {r : Reader α} (h : Fills r) (q : ∀ h, r h ≠ .error .assertionError) : OMode r r where
  agree := fun _ => .inr rfl
  mend := by
    intro h0 a h' hr
    obtain ⟨bs, v', l', f, e, g⟩ := h.full h0 a h' hr
    exact ⟨bs, bs, v', l', f, .refl bs, e, g⟩
  quiet := q

theorem bind_eq_match (r : Reader α) (f : α → Reader β) (h : ByteHandler) :
    (r >>= f) h = match r h with | .error e => .error e | .ok (a, h') => f a h' := rfl

theorem OMode.pure (a : α) : OMode (pure a : Reader α) (pure a) := .same (Fills.pure a) (fun _ => nofun)

theorem OMode.bind {r rO : Reader α} {f fO : α → Reader β} (h1 : OMode r rO) (h2 : ∀ a, OMode (f a) (fO a)) :
    OMode (r >>= f) (rO >>= fO) where
  agree := by
    intro h
    rw [bind_eq_match, bind_eq_match]
    rcases h1.agree h with e | e
    · rw [e]; exact .inl rfl
    · rw [e]
      cases r h with
      | error e => exact .inr rfl
      | ok p => exact (h2 p.1).agree p.2
  mend := by
    intro h b h' hr
    cases hc : rO h with
    | error e => rw [bind_eq_match, hc] at hr; cases hr
    | ok p =>
      obtain ⟨a, h1'⟩ := p
      rw [bind_ok hc] at hr
      obtain ⟨b1, c1, v1, l1, f1, m1, rfl, g1⟩ := h1.mend h a h1' hc
      obtain ⟨b2, c2, v2, l2, f2, m2, rfl, g2⟩ := (h2 a).mend _ b h' hr
      refine ⟨b1 ++ b2, c1 ++ c2, v2, l2, f1.append (by simpa using f2), m1.append m2, by simp [Nat.add_assoc], fun g hg hp => ?_⟩
      obtain ⟨p1, p2⟩ := drop_prefix hp
      obtain ⟨k1, e1⟩ := g1 g hg p1
      obtain ⟨k2, e2⟩ := g2 { g with offset := g.offset + c1.length, version := v1, lossy := k1 } rfl p2
      exact ⟨k2, by rw [bind_ok e1, e2]; simp [Nat.add_assoc]⟩
  quiet := by
    intro h
    rw [bind_eq_match]
    have := h1.quiet h
    cases hc : rO h with
    | error e => rw [hc] at this; simpa using this
    | ok p => exact (h2 p.1).quiet p.2

theorem OMode.raise {e : PyErr} (he : e ≠ .assertionError) : OMode (Genie.raise e : Reader α) (Genie.raise e) :=
  .same Fills.raise fun h hr => he (Except.error.inj hr)

theorem OMode.noteLossy {b : Bool} : OMode (Genie.noteLossy b) (Genie.noteLossy b) := .same Fills.noteLossy (fun _ => nofun)
theorem OMode.getVersion : OMode Genie.getVersion Genie.getVersion := .same Fills.getVersion (fun _ => nofun)
theorem OMode.setVersion {w : Version} : OMode (Genie.setVersion w) (Genie.setVersion w) := .same Fills.setVersion (fun _ => nofun)

theorem OMode.liftPy {x : Py α} (h : x ≠ .error .assertionError) : OMode (Genie.liftPy x) (Genie.liftPy x) :=
  .same Fills.liftPy fun g hr => by
    cases x with
    | error e => exact h (by rw [Except.error.inj hr])
    | ok a => cases hr

theorem ite_omode {c : Prop} [Decidable c] {a a' b b' : Reader α} (h1 : OMode a a') (h2 : OMode b b') :
    OMode (if c then a else b) (if c then a' else b') := by
  split
  · exact h1
  · exact h2

theorem OMode.int8 : OMode readInt8 readInt8 := .same Fills.int8 (fun _ => nofun)
theorem OMode.int16 {s : Bool} : OMode (readInt16 s) (readInt16 s) := .same Fills.int16 (fun _ => nofun)
theorem OMode.int32 {s : Bool} : OMode (readInt32 s) (readInt32 s) := .same Fills.int32 (fun _ => nofun)

theorem quiet_bind {r : Reader α} {f : α → Reader β} (h1 : ∀ h, r h ≠ .error .assertionError)
    (h2 : ∀ a h, f a h ≠ .error .assertionError) (h : ByteHandler) : (r >>= f) h ≠ .error .assertionError := by
  rw [bind_eq_match]
  have := h1 h
  cases hc : r h with
  | error e => rw [hc] at this; simpa using this
  | ok p => exact h2 p.1 p.2

theorem quiet_lift {x : Py α} (hx : x ≠ .error .assertionError) (h : ByteHandler) : Genie.liftPy x h ≠ .error .assertionError := by
  intro hr
  cases x with
  | error e => exact hx (by rw [Except.error.inj hr])
  | ok a => cases hr

theorem OMode.float : OMode readFloat readFloat :=
  .same Fills.float (quiet_bind (fun _ => nofun) fun c => quiet_bind (fun _ => nofun) fun _ => quiet_lift (by
    unfold Float_from_bytes unpackNativeF
    split <;> nofun))

theorem String_quiet (c : Bytes) : String_from_bytes c ≠ .error .assertionError := by
  intro h
  cases strDecode_error h

theorem OMode.string {n : Nat} : OMode (readString n) (readString n) :=
  .same Fills.string (quiet_bind (fun _ => nofun) fun c => quiet_lift (String_quiet c))

/-- The text behind the marker. -/
theorem OMode.text {n : Nat} : OMode (do
    let c ← consumeRange n
    Genie.noteLossy (decide (rstripNul c ≠ c))
    Genie.liftPy (String_from_bytes c)) (do
    let c ← consumeRange n
    Genie.noteLossy (decide (rstripNul c ≠ c))
    Genie.liftPy (String_from_bytes c)) :=
  .same (Fills.textRange fun _ h => note_liftPy_map h)
    (quiet_bind (fun _ => nofun) fun c => quiet_bind (fun _ => nofun) fun _ => quiet_lift (String_quiet c))

theorem OMode.textBehind : OMode (do
    let size ← readInt16 (signed := false)
    let c ← consumeRange size.toNat
    Genie.noteLossy (decide (rstripNul c ≠ c))
    Genie.liftPy (String_from_bytes c)) (do
    let size ← readInt16 (signed := false)
    let c ← consumeRange size.toNat
    Genie.noteLossy (decide (rstripNul c ≠ c))
    Genie.liftPy (String_from_bytes c)) := .bind .int16 fun _ => .text

/-- The one place where an assertion is left out. -/
theorem OMode.debugString : OMode readDebugString readDebugStringO := by
  generalize hb : (do
    let size ← readInt16 (signed := false)
    let c ← consumeRange size.toNat
    Genie.noteLossy (decide (rstripNul c ≠ c))
    Genie.liftPy (String_from_bytes c) : Reader PyStr) = body
  have hbody : OMode body body := hb ▸ OMode.textBehind
  have e1 : readDebugString = (readInt16 false >>= fun t => if t ≠ 0x0A60 then Genie.raise .assertionError else body) := by
    rw [← hb]; rfl
  have e2 : readDebugStringO = (readInt16 false >>= fun _ => body) := by
    rw [← hb]; rfl
  rw [e1, e2]
  refine ⟨?_, ?_, ?_⟩
  · intro h
    rw [bind_eq_match, bind_eq_match]
    cases hc : readInt16 false h with
    | error e => exact .inr rfl
    | ok p =>
      simp only
      by_cases ht : p.1 = 0x0A60
      · rw [if_neg (by simpa using ht)]; exact .inr rfl
      · rw [if_pos ht]; exact .inl rfl
  · intro h a h' hr
    cases hc : readInt16 false h with
    | error e => rw [bind_eq_match, hc] at hr; cases hr
    | ok p =>
      obtain ⟨t, h1⟩ := p
      rw [bind_ok hc] at hr
      obtain ⟨b1, v1, l1, f1, rfl, g1⟩ := (Fills.int16 (s := false)).full h t h1 hc
      have o1 : b1.length = 2 := by
        have : readInt16 false h = .ok (_, { h with offset := h.offset + 2, lossy := _ }) := rfl
        rw [this] at hc
        have := congrArg (fun q => q.2.offset) (Except.ok.inj hc)
        simp only at this
        omega
      have v1e : v1 = h.version := by
        have : readInt16 false h = .ok (_, { h with offset := h.offset + 2, lossy := _ }) := rfl
        rw [this] at hc
        exact (congrArg (fun q => q.2.version) (Except.ok.inj hc)).symm
      obtain ⟨b2, c2, v2, l2, f2, m2, rfl, g2⟩ := hbody.mend _ a h' hr
      obtain ⟨x, y, rfl⟩ : ∃ x y, b1 = [x, y] := by
        match b1, o1 with
        | [x, y], _ => exact ⟨x, y, rfl⟩
      refine ⟨[x, y] ++ b2, 0x60 :: 0x0A :: c2, v2, l2, f1.append (by simpa using f2), Mended.marker x y m2, by simp; omega, fun g hg hp => ?_⟩
      obtain ⟨p1, p2⟩ := drop_prefix (b1 := [0x60, 0x0A]) (b2 := c2) hp
      have e3 : slice g.content g.offset (g.offset + 2) = [0x60, 0x0A] := by
        rw [slice_drop_take]
        obtain ⟨t, e⟩ := p1
        rw [← e]; rfl
      have e4 : readInt16 false g = .ok (0x0A60, { g with
          offset := g.offset + 2
          lossy := g.lossy || decide (0 < 2 ∧ g.content.length < g.offset + 2) }) := by
        have : readInt16 false g = .ok (Int_from_bytes (slice g.content g.offset (g.offset + 2)) false, { g with
          offset := g.offset + 2
          lossy := g.lossy || decide (0 < 2 ∧ g.content.length < g.offset + 2) }) := rfl
        rw [this, e3]; rfl
      obtain ⟨k2, e5⟩ := g2 { g with
          offset := g.offset + 2
          lossy := g.lossy || decide (0 < 2 ∧ g.content.length < g.offset + 2) } (by rw [v1e]; exact hg) p2
      refine ⟨k2, ?_⟩
      rw [bind_ok e4, if_neg (by simp), e5]
      simp only [List.length_cons]; congr 3; omega
  · exact quiet_bind (fun _ => nofun) fun _ => hbody.quiet

theorem OMode.repeatR {r rO : Reader α} (h : OMode r rO) (n : Nat) : OMode (Genie.repeatR r n) (Genie.repeatR rO n) := by
  induction n with
  | zero => exact OMode.pure _
  | succ n ih => exact OMode.bind h fun _ => OMode.bind ih fun _ => OMode.pure _

theorem OMode.array {r rO : Reader α} {n : Int} {b : Bool} (h : OMode r rO) : OMode (readArray r n b) (readArray rO n b) :=
  OMode.bind OMode.noteLossy fun _ => OMode.repeatR h _

theorem OMode.readIf {c : Prop} [Decidable c] {r rO : Reader α} (h : OMode r rO) : OMode (Genie.readIf c r) (Genie.readIf c rO) := by
  unfold Genie.readIf
  split
  · exact OMode.bind h fun _ => OMode.pure _
  · exact OMode.pure _

theorem OMode.readOr {c : Prop} [Decidable c] {r rO : Reader α} {a : α} (h : OMode r rO) : OMode (Genie.readOr c r a) (Genie.readOr c rO a) := by
  unfold Genie.readOr
  split
  · exact h
  · exact OMode.pure _

theorem OMode.pointersFrom {r rO : Reader α} (h : OMode r rO) (ps : List Int) (i n : Nat) :
    OMode (readPointersFrom r ps i n) (readPointersFrom rO ps i n) := by
  induction n generalizing i with
  | zero => exact OMode.pure _
  | succ n ih =>
    unfold readPointersFrom
    split
    · exact OMode.raise nofun
    · exact OMode.bind OMode.noteLossy fun _ => OMode.bind (OMode.readIf h) fun _ => OMode.bind (ih _) fun _ => OMode.pure _

theorem OMode.pointers {r rO : Reader α} {n : Int} {ps : List Int} (h : OMode r rO) :
    OMode (readClassArrayWithPointers r n ps) (readClassArrayWithPointers rO n ps) := OMode.pointersFrom h _ _ _

theorem OMode.unpack {fmt : String} {n : Nat} (h : (parseFmt fmt).map codesSize = some n) : OMode (unpackFrom fmt n) (unpackFrom fmt n) :=
  .same (Fills.unpack h) (quiet_bind (fun _ => nofun) fun c => quiet_bind (fun _ => nofun) fun _ => quiet_lift (by
    unfold structUnpack
    split
    · nofun
    · split <;> nofun))

theorem OMode.popInt {vs : List Val} {k kO : Int → List Val → Reader β} (h : ∀ i vs, OMode (k i vs) (kO i vs)) :
    OMode (Genie.popInt vs k) (Genie.popInt vs kO) := by
  unfold Genie.popInt
  split
  · exact h _ _
  · exact OMode.raise nofun
  · exact OMode.raise nofun

theorem OMode.popFloat {vs : List Val} {k kO : PyFloat → List Val → Reader β} (h : ∀ i vs, OMode (k i vs) (kO i vs)) :
    OMode (Genie.popFloat vs k) (Genie.popFloat vs kO) := by
  unfold Genie.popFloat
  split
  · exact h _ _
  · exact OMode.raise nofun
  · exact OMode.raise nofun

theorem OMode.popDone {vs : List Val} {k kO : Reader β} (h : OMode k kO) : OMode (Genie.popDone vs k) (Genie.popDone vs kO) := by
  unfold Genie.popDone
  split
  · exact h
  · exact OMode.raise nofun

theorem OMode.class_ {r rO : Reader α} (h : OMode r rO) : OMode (readClass r) (readClass rO) := h
theorem OMode.classArray {r rO : Reader α} {n : Int} {b : Bool} (h : OMode r rO) : OMode (readClassArray r n b) (readClassArray rO n b) := OMode.array h
theorem OMode.withParam {r rO : Int → Reader α} {n m : Int} (h : OMode (r m) (rO m)) :
    OMode (readClassArrayWithParam r n m) (readClassArrayWithParam rO n m) := OMode.array h
theorem OMode.int8Array {n : Int} : OMode (readInt8Array n) (readInt8Array n) := OMode.array OMode.int8
theorem OMode.int16Array {n : Int} : OMode (readInt16Array n) (readInt16Array n) := OMode.array OMode.int16
theorem OMode.int32Array {n : Int} : OMode (readInt32Array n) (readInt32Array n) := OMode.array OMode.int32
theorem OMode.floatArray {n : Int} : OMode (readFloatArray n) (readFloatArray n) := OMode.array OMode.float

/-- A fixed number of reads, one after the other. -/
macro "omode_fixed" : tactic => `(tactic| repeat (first
  | exact OMode.pure _ | exact OMode.int8 | exact OMode.int16 | exact OMode.int32 | exact OMode.float | assumption
  | (refine OMode.bind ?_ fun _ => ?_)))

theorem OMode.int8Array2 : OMode readInt8Array2 readInt8Array2 := by unfold readInt8Array2; omode_fixed
theorem OMode.int8Array3 : OMode readInt8Array3 readInt8Array3 := by unfold readInt8Array3; omode_fixed
theorem OMode.int8Array5 : OMode readInt8Array5 readInt8Array5 := by unfold readInt8Array5; omode_fixed
theorem OMode.int8Array6 : OMode readInt8Array6 readInt8Array6 := by unfold readInt8Array6; omode_fixed
theorem OMode.int8Array10 : OMode readInt8Array10 readInt8Array10 := by unfold readInt8Array10; omode_fixed
theorem OMode.int16Array2 : OMode readInt16Array2 readInt16Array2 := by unfold readInt16Array2; omode_fixed
theorem OMode.int16Array3 : OMode readInt16Array3 readInt16Array3 := by unfold readInt16Array3; omode_fixed
theorem OMode.int16Array4 : OMode readInt16Array4 readInt16Array4 := by unfold readInt16Array4; omode_fixed
theorem OMode.int16Array6 : OMode readInt16Array6 readInt16Array6 := by unfold readInt16Array6; omode_fixed
theorem OMode.int32Array10 : OMode readInt32Array10 readInt32Array10 := by unfold readInt32Array10; omode_fixed
theorem OMode.floatArray2 : OMode readFloatArray2 readFloatArray2 := by unfold readFloatArray2; omode_fixed
theorem OMode.floatArray3 : OMode readFloatArray3 readFloatArray3 := by unfold readFloatArray3; omode_fixed
theorem OMode.classArray3 {r rO : Reader α} (h : OMode r rO) : OMode (readClassArray3 r) (readClassArray3 rO) := by unfold readClassArray3; omode_fixed
theorem OMode.classArray4 {r rO : Reader α} (h : OMode r rO) : OMode (readClassArray4 r) (readClassArray4 rO) := by unfold readClassArray4; omode_fixed

/-- Prove a goal `OMode (do …) (do …)`. -/
macro "omode" : tactic => `(tactic| with_reducible repeat (first
  | exact OMode.pure _
  | refine OMode.popInt fun _ _ => ?_ | refine OMode.popFloat fun _ _ => ?_ | refine OMode.popDone ?_
  | (refine OMode.bind ?_ fun _ => ?_)
  | exact OMode.int8 | exact OMode.int16 | exact OMode.int32 | exact OMode.float
  | exact OMode.string | exact OMode.debugString | exact OMode.getVersion | exact OMode.noteLossy
  | exact OMode.int8Array | exact OMode.int16Array | exact OMode.int32Array | exact OMode.floatArray
  | exact OMode.int8Array2 | exact OMode.int8Array3 | exact OMode.int8Array5 | exact OMode.int8Array6 | exact OMode.int8Array10
  | exact OMode.int16Array2 | exact OMode.int16Array3 | exact OMode.int16Array4 | exact OMode.int16Array6
  | exact OMode.int32Array10 | exact OMode.floatArray2 | exact OMode.floatArray3
  | assumption
  | refine OMode.class_ ?_ | refine OMode.classArray ?_ | refine OMode.classArray3 ?_ | refine OMode.classArray4 ?_
  | refine OMode.pointers ?_ | refine OMode.readIf ?_ | refine OMode.readOr ?_ | refine OMode.withParam ?_
  | exact OMode.unpack (by decide)
  | refine ite_omode ?_ ?_))

end Genie
