import Verif.Proof.Pieces
/-! # Odd chunks are never written -/

namespace Genie

theorem leNat_zeros (w : Nat) : leNat (List.replicate w 0) = 0 := by
  induction w with
  | zero => rfl
  | succ w ih => rw [List.replicate_succ]; simp [leNat, ih]

/-- Odd bytes differ from the bytes of the item: where both begin a sequence, the sequences differ. -/
theorem Item.Odd.ne {it : Item} {c x y : Bytes} (h : it.Odd c) : c ++ x ≠ it.bytes ++ y := by
  have same : ∀ {a b x y : Bytes}, a.length = b.length → a ≠ b → a ++ x ≠ b ++ y :=
    fun hl hn he => hn (List.append_inj he hl).1
  have flt : ∀ {c x y : Bytes} {f : PyFloat}, c.length = 4 → SignallingNaN32 (leNat c) → f = floatOfBytes c →
      c ++ x ≠ bytesOfFloat f ++ y := by
    intro c x y f h1 h2 h3
    refine same (by rw [h1, bytesOfFloat_length]) ?_
    intro he
    have hs := (snan32_iff _).2 h2
    rw [h3, bytesOfFloat_floatOfBytes h1] at he
    have e2 := congrArg leNat he
    have hq := F.quiet_lt (leNat_lt4 h1)
    rw [leNat_natLE, Nat.mod_eq_of_lt (by omega)] at e2
    have := F.isSNaN32_quiet (leNat c)
    rw [← e2, hs] at this
    cases this
  match it, h with
  | .count w true 0, ⟨h1, h2⟩ =>
    refine same (by rw [h1]; simp [Item.bytes, natLE_length]) ?_
    rintro rfl
    rw [Item.bytes, leNat_natLE] at h2
    have := Nat.pow_pos (n := w) (show 0 < 256 by omega)
    simp at h2
  | .float f, ⟨h1, h2, h3⟩ => exact flt h1 h2 h3
  | .packed .f (.float f), ⟨h1, h2, h3⟩ => exact flt h1 h2 h3
  | .text s, ⟨k, h1, h2, h3⟩ =>
    subst h3
    intro he
    rw [Item.bytes] at he
    simp only [List.append_assoc] at he
    have e1 := (List.append_inj he rfl).2
    have e2 := (List.append_inj e1 (by rw [natLE_length, natLE_length])).1
    have := natLE_inj (by omega) (by omega) e2
    omega
  | .slot true, ⟨h1, h2, h3⟩ =>
    refine same (by rw [h1]; simp [Item.bytes, natLE_length]) ?_
    rintro rfl
    rw [Item.bytes, leNat_natLE] at h3
    exact h3 rfl
  | .idle w, ⟨h1, h2⟩ =>
    refine same (by rw [h1]; simp [Item.bytes]) ?_
    rintro rfl
    exact h2 (leNat_zeros w)

theorem Pieces.length : {its : List Item} → {cs : List Bytes} → Pieces its cs → cs.length = its.length
  | [], [], _ => rfl
  | _ :: _, _ :: _, ⟨_, h⟩ => by rw [List.length_cons, List.length_cons, h.length]

/-- The pieces are the bytes written, exactly if none is odd. -/
theorem Pieces.exact_iff : {its : List Item} → {cs : List Bytes} → Pieces its cs →
    (cs.flatten = layoutBytes its ↔ ∀ p ∈ its.zip cs, ¬ p.1.Odd p.2)
  | [], [], _ => by simp [layoutBytes]
  | it :: its, c :: cs, ⟨h1, h2⟩ => by
    have ih := h2.exact_iff
    simp only [List.flatten_cons, layoutBytes, List.flatMap_cons, List.zip_cons_cons, List.mem_cons, forall_eq_or_imp]
    rw [← ih]
    constructor
    · intro he
      refine ⟨fun ho => ho.ne he, ?_⟩
      rcases h1 with rfl | ho
      · exact List.append_cancel_left he
      · exact absurd he ho.ne
    · rintro ⟨a, b⟩
      rcases h1 with rfl | ho
      · rw [b]; rfl
      · exact absurd ho a

end Genie
