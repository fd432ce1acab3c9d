import Verif.Proof.Records.Top
/-! # The version header of a data file -/

namespace Genie

/-! ## fixed-length strings -/

theorem writeString_of_fromBytes {c : Bytes} {s : PyStr} {n : Nat} (hn : n ≠ 0) (hc : c.length = n)
    (h : String_from_bytes c = .ok s) : writeString n s = .ok c := by
  have h1 := strEncode_strDecode h
  have h2 := rstripNul_append c
  unfold writeString String_to_bytes
  rw [h1]
  simp only [if_neg hn]
  rw [← hc]; exact congrArg _ h2.symm

theorem versionNames_spec {s : PyStr} {v : Version} (h : (s, v) ∈ versionNames) :
    Version.ofStr s = .ok v ∧ ∃ bs, writeString 8 s = .ok bs ∧ bs.length = 8 ∧ String_from_bytes bs = .ok s := by
  have key : ∀ p ∈ versionNames, Version.ofStr p.1 = .ok p.2 ∧ strEncode p.1 = .ok (p.1.map UInt8.ofNat) ∧
      p.1.length = 7 ∧ p.1.getLast? ≠ some 0 := by
    simp only [versionNames, List.mem_cons, List.not_mem_nil, or_false]
    rintro p (rfl | rfl | rfl | rfl | rfl | rfl | rfl | rfl | rfl | rfl) <;> exact ⟨rfl, rfl, rfl, by decide⟩
  obtain ⟨h1, h2, h3, h4⟩ := key _ h
  refine ⟨h1, _, by unfold writeString String_to_bytes; rw [h2], ?_, ?_⟩
  · dsimp only at h3; simp [h3]
  · dsimp only at h2 h4
    unfold String_from_bytes
    rw [rstripNul_append_replicate, rstripNul_eq_self.2 (by rw [Ne, getLast?_strEncode h2]; exact h4)]
    exact strDecode_strEncode h2

theorem ofStr_ok {s : PyStr} {v : Version} (h : Version.ofStr s = .ok v) : s = v.value := by
  unfold Version.ofStr at h
  split at h
  · rename_i w hw
    have := List.find?_some hw
    simp at h this
    rw [← h, this]
  · simp at h

theorem ofStr_error {s : PyStr} {e : PyErr} (h : Version.ofStr s = .error e) : e = .valueError := by
  unfold Version.ofStr at h
  split at h <;> simp at h
  exact h.symm

theorem versionNames_of_read {c : Bytes} {s : PyStr} {v : Version} (hc : c.length ≤ 8)
    (h1 : String_from_bytes c = .ok s) (h2 : Version.ofStr s = .ok v) : (s, v) ∈ versionNames := by
  have hs := ofStr_ok h2
  have h3 := strEncode_length (strEncode_strDecode h1)
  have h4 := rstripNul_length_le c
  have key : ∀ v : Version, v ≠ .UNDEFINED → (v.value, v) ∈ versionNames := by
    intro v; cases v <;> decide
  rw [hs]
  refine key v ?_
  rintro rfl
  rw [hs] at h3
  have : utf8Len (Version.value .UNDEFINED) = 9 := by decide
  omega

/-- What reading the header does. -/
theorem header_eq (body : PyStr → Reader β) (hd : ByteHandler) :
    (do
        let version ← readString 8
        let content_version ← Genie.liftPy (Version.ofStr version)
        setVersion content_version
        body version : Reader β) hd =
    match String_from_bytes ((hd.content.drop hd.offset).take 8) with
    | .error e => .error e
    | .ok s =>
      match Version.ofStr s with
      | .error e => .error e
      | .ok w => body s { hd with
          offset := hd.offset + 8
          version := w
          lossy := hd.lossy || decide (hd.content.length < hd.offset + 8) } := by
  rw [← slice_eq]
  simp only [bind, readString, consumeRange, liftPy, setVersion]
  cases String_from_bytes (slice hd.content hd.offset (hd.offset + 8)) with
  | error e => rfl
  | ok s =>
    simp only
    cases Version.ofStr s <;> simp

/-! ## write then read -/

/-- Reading a file: the version header selects the version at which the rest is read. -/
theorem Reads.header {s : PyStr} {v : Version} {body : PyStr → Reader β} {ws : List (Py Bytes)} {b : β}
    (hs : (s, v) ∈ versionNames) (h : RW v (body s) (joinB ws) b) :
    ∃ bs, joinB (writeString 8 s :: ws) = .ok bs ∧ ∀ hd : ByteHandler, bs <+: hd.content.drop hd.offset →
      (do
        let version ← readString 8
        let content_version ← Genie.liftPy (Version.ofStr version)
        setVersion content_version
        body version : Reader β) hd =
      .ok (b, { hd with offset := hd.offset + bs.length, version := v }) := by
  obtain ⟨h1, b1, e1, l1, d1⟩ := versionNames_spec hs
  obtain ⟨b2, e2, r2⟩ := h
  refine ⟨b1 ++ b2, joinB_cons_ok e1 e2, ?_⟩
  intro hd hp
  obtain ⟨p1, p2⟩ := drop_prefix hp
  have ht : (hd.content.drop hd.offset).take 8 = b1 := by
    obtain ⟨t, ht⟩ := p1
    rw [← ht, List.take_append_of_le_length (by omega), List.take_of_length_le (by omega)]
  have hl := p1.length_le
  rw [List.length_drop] at hl
  rw [header_eq, ht, d1]
  simp only [h1]
  rw [l1] at p2
  rw [r2 { hd with offset := hd.offset + 8, version := v,
                   lossy := hd.lossy || decide (hd.content.length < hd.offset + 8) } rfl p2]
  rw [decide_eq_false (by omega)]
  simp [Nat.add_assoc, l1]

/-! ## reading arbitrary bytes -/

/-- Like `Step`, for a reader that sets the version itself. -/
structure FileStep (r : Reader α) (Q : Version → α → Prop) (P : α → Bytes → Prop) (h : ByteHandler)
    (a : α) (n : Nat) (l : Bool) (v : Version) : Prop where
  post : Q v a
  over : h.content.length < h.offset + n → l = true
  exact_ : l = false → P a ((h.content.drop h.offset).take n)
  frame : h.offset + n ≤ h.content.length → ∀ h2 : ByteHandler,
    (h.content.drop h.offset).take n <+: h2.content.drop h2.offset →
    r h2 = .ok (a, { h2 with offset := h2.offset + n, version := v, lossy := h2.lossy || l })

/-- The exceptions reading a file may raise. -/
def FileErr (h : ByteHandler) (e : PyErr) : Prop :=
  ParseErr e ∨ (e = .valueError ∧ ∃ s, String_from_bytes ((h.content.drop h.offset).take 8) = .ok s ∧
    Version.ofStr s = .error .valueError)

/-- Like `Good`, for a reader that sets the version itself. -/
def GoodFile (r : Reader α) (Q : Version → α → Prop) (P : α → Bytes → Prop) : Prop :=
  ∀ h : ByteHandler,
    (∃ e, r h = .error e ∧ FileErr h e) ∨
    (∃ a n l v, r h = .ok (a, { h with offset := h.offset + n, version := v, lossy := h.lossy || l }) ∧
      FileStep r Q P h a n l v)

theorem GoodFile.header {body : PyStr → Reader β} {Q : Version → β → Prop} {P : β → Bytes → Prop}
    (h : ∀ s v, (s, v) ∈ versionNames →
      Good v (body s) (Q v) (fun b bs2 => ∀ bs1, writeString 8 s = .ok bs1 → P b (bs1 ++ bs2))) :
    GoodFile (do
        let version ← readString 8
        let content_version ← Genie.liftPy (Version.ofStr version)
        setVersion content_version
        body version : Reader β) Q P := by
  intro hd
  rw [header_eq]
  cases hs : String_from_bytes ((hd.content.drop hd.offset).take 8) with
  | error e => exact Or.inl ⟨e, rfl, Or.inl (Or.inr (Or.inr (strDecode_error hs)))⟩
  | ok s =>
    simp only
    cases hw : Version.ofStr s with
    | error e =>
      have he := ofStr_error hw
      subst he
      exact Or.inl ⟨_, rfl, Or.inr ⟨rfl, s, hs, hw⟩⟩
    | ok w =>
      simp only
      have hn := versionNames_of_read (by rw [List.length_take]; omega) hs hw
      rcases h s w hn { hd with offset := hd.offset + 8, version := w,
                                lossy := hd.lossy || decide (hd.content.length < hd.offset + 8) } rfl with
        ⟨e, he, hf⟩ | ⟨b, n2, l2, hr2, s2⟩
      · left; exact ⟨e, he, Or.inl hf⟩
      · right
        have o2 := s2.over
        have x2 := s2.exact_
        have f2 := s2.frame
        simp only at o2 x2 f2
        refine ⟨b, 8 + n2, decide (hd.content.length < hd.offset + 8) || l2, w, ?_, s2.post, ?_, ?_, ?_⟩
        · rw [hr2]; simp [Nat.add_assoc, Bool.or_assoc]
        · intro ho
          by_cases hz : n2 = 0
          · simp; omega
          · rw [o2 (by omega) (by omega)]; simp
        · intro hl
          simp at hl
          rw [take_add_drop]
          exact x2 hl.2 _ (writeString_of_fromBytes (by omega)
            (by rw [List.length_take, List.length_drop]; omega) hs)
        · intro hle k hp
          rw [take_add_drop] at hp
          obtain ⟨p1, p2⟩ := drop_prefix hp
          have hlen : ((hd.content.drop hd.offset).take 8).length = 8 := by
            rw [List.length_take, List.length_drop]; omega
          have hk := p1.length_le
          rw [hlen, List.length_drop] at hk
          have ht : (k.content.drop k.offset).take 8 = (hd.content.drop hd.offset).take 8 := by
            obtain ⟨t, ht⟩ := p1
            rw [← ht, List.take_append_of_le_length (by omega), List.take_of_length_le (by omega)]
          rw [hlen] at p2
          rw [header_eq, ht, hs]
          simp only [hw]
          rw [f2 (by omega) { k with offset := k.offset + 8, version := w,
                                     lossy := k.lossy || decide (k.content.length < k.offset + 8) } rfl p2]
          rw [decide_eq_false (by omega : ¬ k.content.length < k.offset + 8),
            decide_eq_false (by omega : ¬ hd.content.length < hd.offset + 8)]
          simp [Nat.add_assoc]

end Genie
