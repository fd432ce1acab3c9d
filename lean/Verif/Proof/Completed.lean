import Verif.Spec.Completed
import Verif.Proof.Lax
import Verif.Proof.ZeroFill
import Verif.Proof.Classes
import Verif.Model.Datfile
/-!
# Readers on data that ends too early

`Fills r`: if `r` succeeds on data that ends early, it reads the completed data as the same value; and zeros after the data change
nothing, unless `r` raises a `struct.error` without them.
-/

namespace Genie

/-- `bs` is read from data that goes on with `rem`. -/
def FilledFrom (rem bs : Bytes) : Prop := bs <+: rem ∨ Completion rem bs

structure Fills (r : Reader α) : Prop where
  /-- the bytes that are read, completed if need be -/
  full : ∀ h a h', r h = .ok (a, h') → ∃ bs v' l', FilledFrom (h.content.drop h.offset) bs ∧
    h' = { h with offset := h.offset + bs.length, version := v', lossy := l' } ∧
    ∀ g : ByteHandler, g.version = h.version → bs <+: g.content.drop g.offset →
      ∃ l, r g = .ok (a, { g with offset := g.offset + bs.length, version := v', lossy := l })
  /-- zeros change nothing, or a `struct.error` -/
  zeros : ∀ m h g, EndsLow h.content → Padded m h g → r h = .error .structError ∨ (∃ e, r h = .error e ∧ r g = .error e) ∨
    ∃ a h' g', r h = .ok (a, h') ∧ r g = .ok (a, g') ∧ h'.content = h.content ∧ Padded m h' g'

theorem Completion.refl (c : Bytes) : Completion c c := ⟨0, 0, by simp, by omega, by omega⟩

theorem Completion.of_nil {bs : Bytes} (h : FilledFrom [] bs) : ∃ m, bs = List.replicate m 0 := by
  rcases h with h | ⟨k, m, rfl, -, h⟩
  · exact ⟨0, by simpa using List.prefix_nil.1 h⟩
  · rcases Nat.eq_zero_or_pos k with rfl | hk
    · exact ⟨m, by simp⟩
    · obtain ⟨b, hb, -⟩ := h hk
      cases hb

theorem FilledFrom.append {rem b1 b2 : Bytes} (h1 : FilledFrom rem b1) (h2 : FilledFrom (rem.drop b1.length) b2) : FilledFrom rem (b1 ++ b2) := by
  rcases h1 with ⟨t, rfl⟩ | ⟨k, m, rfl, hk, hl⟩
  · rw [List.drop_left' rfl] at h2
    rcases h2 with ⟨u, rfl⟩ | ⟨k, m, rfl, hk, hl⟩
    · exact .inl ⟨u, by simp⟩
    · refine .inr ⟨k, m, by simp, hk, fun hp => ?_⟩
      obtain ⟨b, hb, h⟩ := hl hp
      refine ⟨b, ?_, h⟩
      cases t with
      | nil => cases hb
      | cons x t => rw [List.getLast?_append, hb]; rfl
  · have : rem.drop (rem ++ List.replicate k 255 ++ List.replicate m 0).length = [] := by
      rw [List.drop_eq_nil_iff]; simp
    rw [this] at h2
    obtain ⟨j, rfl⟩ := Completion.of_nil h2
    exact .inr ⟨k, m + j, by simp [List.replicate_append_replicate], hk, hl⟩

theorem Fills.pure (a : α) : Fills (pure a : Reader α) where
  full := by
    intro h b h' hr
    cases hr
    exact ⟨[], h.version, h.lossy, .inl (List.nil_prefix), rfl, fun g hg _ => ⟨g.lossy, by rw [← hg]; rfl⟩⟩
  zeros := fun m h g _ hp => .inr (.inr ⟨a, h, g, rfl, rfl, rfl, hp⟩)

theorem Fills.bind {r : Reader α} {f : α → Reader β} (h1 : Fills r) (h2 : ∀ a, Fills (f a)) : Fills (r >>= f) where
  full := by
    intro h b h' hr
    have hb : ∀ h : ByteHandler, (r >>= f) h = match r h with | .error e => .error e | .ok (a, h') => f a h' := fun _ => rfl
    cases hc : r h with
    | error e => rw [hb, hc] at hr; cases hr
    | ok p =>
      obtain ⟨a, h1'⟩ := p
      rw [bind_ok hc] at hr
      obtain ⟨b1, v1, l1, f1, rfl, g1⟩ := h1.full h a h1' hc
      obtain ⟨b2, v2, l2, f2, rfl, g2⟩ := (h2 a).full _ b h' hr
      refine ⟨b1 ++ b2, v2, l2, f1.append (by simpa using f2), by simp [Nat.add_assoc], fun g hg hp => ?_⟩
      obtain ⟨p1, p2⟩ := drop_prefix hp
      obtain ⟨k1, e1⟩ := g1 g hg p1
      obtain ⟨k2, e2⟩ := g2 { g with offset := g.offset + b1.length, version := v1, lossy := k1 } rfl p2
      exact ⟨k2, by rw [bind_ok e1, e2]; simp [Nat.add_assoc]⟩
  zeros := by
    intro m h g hl hp
    have hb : ∀ h : ByteHandler, (r >>= f) h = match r h with | .error e => .error e | .ok (a, h') => f a h' := fun _ => rfl
    rcases h1.zeros m h g hl hp with e1 | ⟨e, e1, e2⟩ | ⟨a, h', g', e1, e2, hc, hp'⟩
    · exact .inl (by rw [hb, e1])
    · exact .inr (.inl ⟨e, by rw [hb, e1], by rw [hb, e2]⟩)
    · rcases (h2 a).zeros m h' g' (hc ▸ hl) hp' with e3 | ⟨e, e3, e4⟩ | ⟨b, h'', g'', e3, e4, hc', hp''⟩
      · exact .inl (by rw [bind_ok e1, e3])
      · exact .inr (.inl ⟨e, by rw [bind_ok e1, e3], by rw [bind_ok e2, e4]⟩)
      · exact .inr (.inr ⟨b, h'', g'', by rw [bind_ok e1, e3], by rw [bind_ok e2, e4], hc'.trans hc, hp''⟩)

theorem Fills.raise {e : PyErr} : Fills (Genie.raise e : Reader α) where
  full := by intro h a h' hr; cases hr
  zeros := fun _ _ _ _ _ => .inr (.inl ⟨e, rfl, rfl⟩)

theorem Fills.noteLossy {b : Bool} : Fills (Genie.noteLossy b) where
  full := by
    intro h a h' hr
    cases hr
    exact ⟨[], h.version, h.lossy || b, .inl List.nil_prefix, rfl, fun g hg _ => ⟨g.lossy || b, by rw [← hg]; rfl⟩⟩
  zeros := fun m h g _ hp => .inr (.inr ⟨(), _, _, rfl, rfl, rfl, hp⟩)

theorem Fills.getVersion : Fills Genie.getVersion where
  full := by
    intro h a h' hr
    cases hr
    exact ⟨[], h.version, h.lossy, .inl List.nil_prefix, rfl, fun g hg _ => ⟨g.lossy, by rw [← hg]; rfl⟩⟩
  zeros := by
    intro m h g _ hp
    refine .inr (.inr ⟨h.version, h, g, rfl, ?_, rfl, hp⟩)
    rw [← hp.2.2]; rfl

theorem Fills.setVersion {w : Version} : Fills (Genie.setVersion w) where
  full := by
    intro h a h' hr
    cases hr
    exact ⟨[], w, h.lossy, .inl List.nil_prefix, rfl, fun g _ _ => ⟨g.lossy, rfl⟩⟩
  zeros := fun m h g _ hp => .inr (.inr ⟨(), _, _, rfl, rfl, rfl, hp.1, hp.2.1, rfl⟩)

theorem Fills.liftPy {x : Py α} : Fills (Genie.liftPy x) := by
  cases x with
  | error e => exact Fills.raise
  | ok a => exact Fills.pure a

theorem slice_drop_take (c : Bytes) (o n : Nat) : slice c o (o + n) = (c.drop o).take n := by
  unfold slice
  rw [List.drop_take]
  congr
  omega

/-- Readers of a range of bytes. -/
theorem Fills.range {n : Nat} {f : Bytes → Reader α} (g : Bytes → Py α)
    (hf : ∀ c h, ∃ l, f c h = (g c).map fun a => (a, { h with lossy := l }))
    (h1 : ∀ c a, c.length < n → g c = .ok a → ∃ p : Bytes, p.length = n - c.length ∧ Completion c (c ++ p) ∧ g (c ++ p) = .ok a)
    (h2 : ∀ c j, EndsLow c → c.length < n → c.length + j ≤ n → g c = .error .structError ∨ g (c ++ List.replicate j 0) = g c) :
    Fills (consumeRange n >>= f) where
  full := by
    intro h a h' hr
    have hb : ∀ h : ByteHandler, ∃ l, (consumeRange n >>= f) h =
        (g ((h.content.drop h.offset).take n)).map fun a => (a, { h with offset := h.offset + n, lossy := l }) := by
      intro h
      obtain ⟨l, e⟩ := hf (slice h.content h.offset (h.offset + n)) { h with
        offset := h.offset + n
        lossy := h.lossy || decide (0 < n ∧ h.content.length < h.offset + n) }
      exact ⟨l, e.trans (by rw [slice_drop_take])⟩
    obtain ⟨l, e⟩ := hb h
    rw [e] at hr
    have hg : g ((h.content.drop h.offset).take n) = .ok a ∧ h' = { h with offset := h.offset + n, lossy := l } := by
      cases hc : g ((h.content.drop h.offset).take n) with
      | error e => rw [hc] at hr; cases hr
      | ok b => rw [hc] at hr; cases hr; exact ⟨rfl, rfl⟩
    obtain ⟨hg, rfl⟩ := hg
    have key : ∀ bs : Bytes, bs.length = n → g bs = .ok a → ∀ k : ByteHandler, k.version = h.version → bs <+: k.content.drop k.offset →
        ∃ l, (consumeRange n >>= f) k = .ok (a, { k with offset := k.offset + bs.length, version := h.version, lossy := l }) := by
      intro bs hl hg k hv hp
      obtain ⟨l, e⟩ := hb k
      refine ⟨l, ?_⟩
      rw [e, ← hl, ← List.prefix_iff_eq_take.1 hp, hg, ← hv]
      rfl
    generalize h.content.drop h.offset = rem at *
    by_cases hn : n ≤ rem.length
    · have hl : (rem.take n).length = n := by rw [List.length_take]; omega
      exact ⟨rem.take n, h.version, l, .inl (List.take_prefix _ _), by rw [hl], key _ hl hg⟩
    · rw [List.take_of_length_le (by omega)] at hg
      obtain ⟨p, hp, hc, hg'⟩ := h1 rem a (by omega) hg
      have hl : (rem ++ p).length = n := by rw [List.length_append]; omega
      exact ⟨rem ++ p, h.version, l, .inr hc, by rw [hl], key _ hl hg'⟩
  zeros := by
    intro m h k hl hp
    obtain ⟨c, o, v, l⟩ := h
    obtain ⟨c', o', v', l'⟩ := k
    obtain ⟨q1, q2, q3⟩ := hp
    simp only at q1 q2 q3 hl
    subst q1 q2 q3
    have hb : ∀ c l, ∃ l', (consumeRange n >>= f) ⟨c, o', v', l⟩ = (g ((c.drop o').take n)).map fun a => (a, ⟨c, o' + n, v', l'⟩) := by
      intro c l
      obtain ⟨l', e⟩ := hf (slice c o' (o' + n)) ⟨c, o' + n, v', l || decide (0 < n ∧ c.length < o' + n)⟩
      exact ⟨l', e.trans (by rw [slice_drop_take])⟩
    obtain ⟨a1, e1⟩ := hb c l
    obtain ⟨a2, e2⟩ := hb (c ++ List.replicate m 0) l'
    rw [e1, e2]
    have hg : g ((c.drop o').take n) = .error .structError ∨ g (((c ++ List.replicate m 0).drop o').take n) = g ((c.drop o').take n) := by
      by_cases hn : o' + n ≤ c.length
      · refine .inr ?_
        rw [List.drop_append_of_le_length (by omega), List.take_append_of_le_length (by rw [List.length_drop]; omega)]
      · by_cases h0 : n = 0
        · subst h0; exact .inr (by simp)
        rw [List.drop_append, List.take_append, List.drop_replicate, List.take_replicate]
        have hd : (c.drop o').length < n := by rw [List.length_drop]; omega
        rw [List.take_of_length_le (by omega)]
        exact h2 _ _ (hl.drop o') hd (by omega)
    rcases hg with hg | hg
    · rw [hg]; exact .inl rfl
    · rw [hg]
      cases g ((c.drop o').take n) with
      | error e => exact .inr (.inl ⟨e, rfl, rfl⟩)
      | ok a => exact .inr (.inr ⟨a, _, _, rfl, rfl, rfl, rfl, rfl, rfl⟩)

theorem Fills.intRead {n : Nat} (hn : n ≤ 4) {sg : Bool} : Fills (do let c ← consumeRange n; return Int_from_bytes c sg) := by
  refine Fills.range (f := fun c => Pure.pure (Int_from_bytes c sg)) (fun c => .ok (intFromBytes c sg)) (fun c h => ⟨h.lossy, rfl⟩) ?_ ?_
  · intro c a hc ha
    by_cases hs : sg = true ∧ 256 ^ c.length ≤ 2 * leNat c
    · obtain ⟨hs, hh⟩ := hs
      have hlast := leNat_high hh
      have hne : 0 < c.length := by
        obtain ⟨b, hb, -⟩ := hlast
        cases c with
        | nil => cases hb
        | cons x c => simp
      refine ⟨List.replicate (n - c.length) 255, by simp, ⟨n - c.length, 0, by simp, by omega, fun _ => hlast⟩, ?_⟩
      rw [← ha]
      have key := leNat_append_ones c (n - c.length)
      have hpow : 256 ^ c.length ≤ 256 ^ (c.length + (n - c.length)) := Nat.pow_le_pow_right (by omega) (by omega)
      have e1 : intFromBytes c sg = (leNat c : Int) - ((256 ^ c.length : Nat) : Int) := by
        unfold intFromBytes
        rw [if_pos ⟨hs, hh⟩, Int.natCast_pow]; rfl
      have e2 : intFromBytes (c ++ List.replicate (n - c.length) 255) sg =
          (leNat (c ++ List.replicate (n - c.length) 255) : Int) - ((256 ^ (c.length + (n - c.length)) : Nat) : Int) := by
        unfold intFromBytes
        rw [List.length_append, List.length_replicate, if_pos ⟨hs, by omega⟩, Int.natCast_pow]; rfl
      rw [e1, e2]
      congr 1
      generalize 256 ^ c.length = x at *
      generalize 256 ^ (c.length + (n - c.length)) = y at *
      omega
    · refine ⟨List.replicate (n - c.length) 0, by simp, ⟨0, n - c.length, by simp, by omega, by omega⟩, ?_⟩
      rw [← ha]
      congr 1
      unfold intFromBytes
      rw [if_neg hs, if_neg, leNat_append_zeros]
      rintro ⟨h1, h2⟩
      refine hs ⟨h1, ?_⟩
      rw [leNat_append_zeros, List.length_append] at h2
      exact Nat.le_trans (Nat.pow_le_pow_right (by omega) (by omega)) h2
  · intro c j hl hc hj
    exact .inr (by rw [intFromBytes_low (hl.zeros j), intFromBytes_low hl, leNat_append_zeros])

theorem Fills.int8 : Fills readInt8 := Fills.intRead (by omega)
theorem Fills.int16 {s : Bool} : Fills (readInt16 s) := Fills.intRead (by omega)
theorem Fills.int32 {s : Bool} : Fills (readInt32 s) := Fills.intRead (by omega)

theorem liftPy_map {x : Py α} (h : ByteHandler) : ∃ l, Genie.liftPy x h = x.map fun a => (a, { h with lossy := l }) := by
  cases x <;> exact ⟨h.lossy, rfl⟩

theorem Fills.float : Fills readFloat := by
  refine Fills.range Float_from_bytes (fun c h => note_liftPy_map h) ?_ ?_
  · intro c a hc ha
    unfold Float_from_bytes unpackNativeF at ha
    rw [if_neg (by omega)] at ha
    cases ha
  · intro c j _ hc _
    unfold Float_from_bytes unpackNativeF
    rw [if_neg (by omega)]
    exact .inl rfl

theorem Fills.textRange {n : Nat} {f : Bytes → Reader PyStr}
    (hf : ∀ c h, ∃ l, f c h = (String_from_bytes c).map fun a => (a, { h with lossy := l })) : Fills (consumeRange n >>= f) :=
  Fills.range String_from_bytes hf
    (fun c a _ ha => ⟨List.replicate (n - c.length) 0, by simp, ⟨0, n - c.length, by simp, by omega, by omega⟩, by
      rw [String_from_bytes_zeros, ha]⟩)
    (fun c j _ _ _ => .inr (String_from_bytes_zeros c j))

theorem Fills.string {n : Nat} : Fills (readString n) := Fills.textRange fun _ h => liftPy_map h

theorem Fills.debugString : Fills readDebugString := by
  refine Fills.bind Fills.int16 fun a => ?_
  split
  · exact Fills.raise
  · exact Fills.bind Fills.int16 fun b => Fills.textRange fun _ h => note_liftPy_map h

theorem Fills.repeatR {r : Reader α} (h : Fills r) (n : Nat) : Fills (Genie.repeatR r n) := by
  induction n with
  | zero => exact Fills.pure _
  | succ n ih => exact Fills.bind h fun _ => Fills.bind ih fun _ => Fills.pure _

theorem Fills.array {r : Reader α} {n : Int} {b : Bool} (h : Fills r) : Fills (readArray r n b) :=
  Fills.bind Fills.noteLossy fun _ => Fills.repeatR h _

theorem Fills.readIf {c : Prop} [Decidable c] {r : Reader α} (h : Fills r) : Fills (Genie.readIf c r) := by
  unfold Genie.readIf
  split
  · exact Fills.bind h fun _ => Fills.pure _
  · exact Fills.pure _

theorem Fills.readOr {c : Prop} [Decidable c] {r : Reader α} {a : α} (h : Fills r) : Fills (Genie.readOr c r a) := by
  unfold Genie.readOr
  split
  · exact h
  · exact Fills.pure _

theorem Fills.pointersFrom {r : Reader α} (h : Fills r) (ps : List Int) (i n : Nat) : Fills (readPointersFrom r ps i n) := by
  induction n generalizing i with
  | zero => exact Fills.pure _
  | succ n ih =>
    unfold readPointersFrom
    split
    · exact Fills.raise
    · exact Fills.bind Fills.noteLossy fun _ => Fills.bind (Fills.readIf h) fun _ =>
        Fills.bind (ih _) fun _ => Fills.pure _

theorem Fills.pointers {r : Reader α} {n : Int} {ps : List Int} (h : Fills r) : Fills (readClassArrayWithPointers r n ps) :=
  Fills.pointersFrom h _ _ _

theorem Fills.unpack {fmt : String} {n : Nat} (h : (parseFmt fmt).map codesSize = some n) : Fills (unpackFrom fmt n) := by
  have hs : ∀ c : Bytes, c.length < n → structUnpack fmt c = .error .structError := by
    intro c hc
    unfold structUnpack
    cases hp : parseFmt fmt with
    | none => rfl
    | some cs =>
      rw [hp] at h
      simp only [Option.map_some, Option.some.injEq] at h
      simp only
      rw [if_neg (by omega)]
  refine Fills.range (structUnpack fmt) (fun c h => note_liftPy_map h) ?_ ?_
  · intro c a hc ha
    rw [hs c hc] at ha
    cases ha
  · intro c j _ hc _
    exact .inl (hs c hc)

theorem Fills.popInt {vs : List Val} {k : Int → List Val → Reader β} (h : ∀ i vs, Fills (k i vs)) : Fills (Genie.popInt vs k) := by
  unfold Genie.popInt
  split
  · exact h _ _
  · exact Fills.raise
  · exact Fills.raise

theorem Fills.popFloat {vs : List Val} {k : PyFloat → List Val → Reader β} (h : ∀ i vs, Fills (k i vs)) :
    Fills (Genie.popFloat vs k) := by
  unfold Genie.popFloat
  split
  · exact h _ _
  · exact Fills.raise
  · exact Fills.raise

theorem Fills.popDone {vs : List Val} {k : Reader β} (h : Fills k) : Fills (Genie.popDone vs k) := by
  unfold Genie.popDone
  split
  · exact h
  · exact Fills.raise

theorem Fills.class_ {r : Reader α} (h : Fills r) : Fills (readClass r) := h
theorem Fills.classArray {r : Reader α} {n : Int} {b : Bool} (h : Fills r) : Fills (readClassArray r n b) := Fills.array h
theorem Fills.withParam {r : Int → Reader α} {n m : Int} (h : Fills (r m)) : Fills (readClassArrayWithParam r n m) := Fills.array h
theorem Fills.int8Array {n : Int} : Fills (readInt8Array n) := Fills.array Fills.int8
theorem Fills.int16Array {n : Int} : Fills (readInt16Array n) := Fills.array Fills.int16
theorem Fills.int32Array {n : Int} : Fills (readInt32Array n) := Fills.array Fills.int32
theorem Fills.floatArray {n : Int} : Fills (readFloatArray n) := Fills.array Fills.float

/-- A fixed number of reads, one after the other. -/
macro "fills_fixed" : tactic => `(tactic| repeat (first
  | exact Fills.pure _ | exact Fills.int8 | exact Fills.int16 | exact Fills.int32 | exact Fills.float | assumption
  | (refine Fills.bind ?_ fun _ => ?_)))

theorem Fills.int8Array2 : Fills readInt8Array2 := by unfold readInt8Array2; fills_fixed
theorem Fills.int8Array3 : Fills readInt8Array3 := by unfold readInt8Array3; fills_fixed
theorem Fills.int8Array5 : Fills readInt8Array5 := by unfold readInt8Array5; fills_fixed
theorem Fills.int8Array6 : Fills readInt8Array6 := by unfold readInt8Array6; fills_fixed
theorem Fills.int8Array10 : Fills readInt8Array10 := by unfold readInt8Array10; fills_fixed
theorem Fills.int16Array2 : Fills readInt16Array2 := by unfold readInt16Array2; fills_fixed
theorem Fills.int16Array3 : Fills readInt16Array3 := by unfold readInt16Array3; fills_fixed
theorem Fills.int16Array4 : Fills readInt16Array4 := by unfold readInt16Array4; fills_fixed
theorem Fills.int16Array6 : Fills readInt16Array6 := by unfold readInt16Array6; fills_fixed
theorem Fills.int32Array10 : Fills readInt32Array10 := by unfold readInt32Array10; fills_fixed
theorem Fills.floatArray2 : Fills readFloatArray2 := by unfold readFloatArray2; fills_fixed
theorem Fills.floatArray3 : Fills readFloatArray3 := by unfold readFloatArray3; fills_fixed
theorem Fills.classArray3 {r : Reader α} (h : Fills r) : Fills (readClassArray3 r) := by unfold readClassArray3; fills_fixed
theorem Fills.classArray4 {r : Reader α} (h : Fills r) : Fills (readClassArray4 r) := by unfold readClassArray4; fills_fixed

/-- Prove a goal `Fills (do …)`. -/
macro "fills" : tactic => `(tactic| with_reducible repeat (first
  | exact Fills.pure _
  | refine Fills.popInt fun _ _ => ?_ | refine Fills.popFloat fun _ _ => ?_ | refine Fills.popDone ?_
  | (refine Fills.bind ?_ fun _ => ?_)
  | exact Fills.int8 | exact Fills.int16 | exact Fills.int32 | exact Fills.float
  | exact Fills.string | exact Fills.debugString | exact Fills.getVersion | exact Fills.noteLossy
  | exact Fills.int8Array | exact Fills.int16Array | exact Fills.int32Array | exact Fills.floatArray
  | exact Fills.int8Array2 | exact Fills.int8Array3 | exact Fills.int8Array5 | exact Fills.int8Array6 | exact Fills.int8Array10
  | exact Fills.int16Array2 | exact Fills.int16Array3 | exact Fills.int16Array4 | exact Fills.int16Array6
  | exact Fills.int32Array10 | exact Fills.floatArray2 | exact Fills.floatArray3
  | assumption
  | refine Fills.class_ ?_ | refine Fills.classArray ?_ | refine Fills.classArray3 ?_ | refine Fills.classArray4 ?_
  | refine Fills.pointers ?_ | refine Fills.readIf ?_ | refine Fills.readOr ?_ | refine Fills.withParam ?_
  | exact Fills.unpack (by decide)
  | split))

end Genie
