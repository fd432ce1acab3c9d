import Verif.Model.Optimized
import Verif.Proof.Records.Special
import Verif.Proof.Records.WritesDat
/-!
# `WritesO w wO its`: a writer, the same writer without `assert`, and its items
-/

namespace Genie

structure WritesO (w wO : Py Bytes) (its : List Item) : Prop where
  agree : w = .error .assertionError ∨ wO = w
  ok : ∀ bs, wO = .ok bs → (∀ e ∈ causes its, e = .assertionError) ∧ bs = layoutBytes its
  error : ∀ e, wO = .error e → e ∈ causes its ∧ e ≠ .assertionError

theorem WritesO.same {w : Py Bytes} {its : List Item} (h : Writes w its) (hn : PyErr.assertionError ∉ causes its) : WritesO w w its where
  agree := .inr rfl
  ok := fun bs hb => ⟨by rw [(h.ok bs hb).1]; nofun, (h.ok bs hb).2⟩
  error := fun e he => ⟨h.error e he, by rintro rfl; exact hn (h.error _ he)⟩

theorem WritesO.plain {w : Py Bytes} {its : List Item} (h : Writes w its) (hn : Plain its) : WritesO w w its :=
  .same h (hn.no (by simp [PlainErr]))

theorem WritesO.nil : WritesO (joinB []) (joinB []) (List.flatten []) := .same Writes.joinNil nofun

theorem WritesO.append {w wO : Py Bytes} {ws wsO : List (Py Bytes)} {a b : List Item} (h1 : WritesO w wO a)
    (h2 : WritesO (joinB ws) (joinB wsO) b) : WritesO (joinB (w :: ws)) (joinB (wO :: wsO)) (a ++ b) where
  agree := by
    simp only [joinB]
    rcases h1.agree with e | e
    · rw [e]; exact .inl rfl
    · rw [e]
      cases w with
      | error e => exact .inr rfl
      | ok x =>
        simp only
        rcases h2.agree with e | e
        · rw [e]; exact .inl rfl
        · rw [e]; exact .inr rfl
  ok := by
    intro bs h
    obtain ⟨b1, b2, e1, e2, rfl⟩ := joinB_cons_eq_ok.1 h
    obtain ⟨c1, rfl⟩ := h1.ok _ e1
    obtain ⟨c2, rfl⟩ := h2.ok _ e2
    rw [causes_append, layoutBytes_append]
    refine ⟨fun e he => ?_, rfl⟩
    rcases List.mem_append.1 he with he | he
    · exact c1 e he
    · exact c2 e he
  error := by
    intro e h
    rw [causes_append]
    cases hw : wO with
    | error e' =>
      rw [hw] at h; simp only [joinB] at h; cases h
      exact ⟨List.mem_append_left _ (h1.error _ hw).1, (h1.error _ hw).2⟩
    | ok b =>
      rw [hw] at h; simp only [joinB] at h
      cases hj : joinB wsO with
      | ok bs => rw [hj] at h; cases h
      | error e' =>
        rw [hj] at h; cases h
        exact ⟨List.mem_append_right _ (h2.error _ hj).1, (h2.error _ hj).2⟩

theorem WritesO.cons {w wO : Py Bytes} {ws wsO : List (Py Bytes)} {a : List Item} {l : List (List Item)} (h1 : WritesO w wO a)
    (h2 : WritesO (joinB ws) (joinB wsO) l.flatten) : WritesO (joinB (w :: ws)) (joinB (wO :: wsO)) (a :: l).flatten := by
  rw [List.flatten_cons]; exact h1.append h2

theorem WritesO.each {w wO : α → Py Bytes} {f : α → List Item} (l : List α) (h : ∀ x ∈ l, WritesO (w x) (wO x) (f x)) :
    WritesO (joinB (l.map w)) (joinB (l.map wO)) (Layout.each f l) := by
  induction l with
  | nil => exact WritesO.nil
  | cons x l ih =>
    have := (h x List.mem_cons_self).append (ih fun y hy => h y (List.mem_cons_of_mem _ hy))
    simpa [Layout.each] using this

/-- An assertion that is left out. -/
theorem WritesO.requires {c : Prop} [Decidable c] {w wO : Py Bytes} {its : List Item} (h : WritesO w wO its) :
    WritesO (if c then w else .error .assertionError) wO (Layout.requires c .assertionError ++ its) := by
  have hb : layoutBytes (Layout.requires c .assertionError ++ its) = layoutBytes its := by
    rw [layoutBytes_append]; simp [layoutBytes, Layout.requires, Item.bytes]
  have hc : ∀ e, e ∈ causes (Layout.requires c .assertionError ++ its) ↔ (e = .assertionError ∧ ¬ c) ∨ e ∈ causes its := by
    intro e
    rw [causes_append, List.mem_append, mem_causes_requires, and_comm]
  refine ⟨?_, ?_, ?_⟩
  · split
    · exact h.agree
    · exact .inl rfl
  · intro bs hw
    obtain ⟨h1, h2⟩ := h.ok bs hw
    refine ⟨fun e he => ?_, by rw [hb]; exact h2⟩
    rcases (hc e).1 he with ⟨e, -⟩ | he
    · exact e
    · exact h1 e he
  · intro e hw
    obtain ⟨h1, h2⟩ := h.error e hw
    exact ⟨(hc e).2 (.inr h1), h2⟩

/-- Closes `WritesO (joinB […]) (joinB […]) (List.flatten […])` where no piece differs. -/
macro "writesO" : tactic => `(tactic| repeat' (with_reducible first
  | exact WritesO.nil
  | refine WritesO.cons ?_ ?_
  | exact WritesO.plain (Writes.countI16 _) (Plain.countI16 _)
  | exact WritesO.plain (Writes.countI32 _) (Plain.countI32 _)
  | exact WritesO.plain (Writes.countU32 _) (Plain.countU32 _)
  | exact WritesO.plain (Writes.i32 _) (Plain.i32 _)
  | exact WritesO.plain (Writes.i32s _) (Plain.each Plain.i32 _)
  | exact WritesO.plain (Writes.f32s _) (Plain.each Plain.f32 _)
  | exact WritesO.plain (Writes.classesI _) (Plain.classesI _)
  | exact WritesO.plain (Writes.classesOptI _) (Plain.classesOptI _)
  | exact WritesO.plain (Writes.classI _) (Plain.classI _)))

theorem TerrainRestriction.writesO (v : Version) (x : TerrainRestriction) : WritesO (x.toBytes v) (x.toBytesO v) (x.layout v) := by
  unfold TerrainRestriction.toBytes TerrainRestriction.toBytesO TerrainRestriction.layout
  rw [ite_not, List.flatten_cons]
  refine WritesO.requires ?_
  writesO

theorem RandomMaps.writesO (v : Version) (x : RandomMaps) : WritesO (x.toBytes v) (x.toBytesO v) (x.layout v) := by
  unfold RandomMaps.toBytes RandomMaps.toBytesO RandomMaps.layout
  rw [ite_not, List.flatten_cons]
  refine WritesO.requires ?_
  writesO

theorem WritesO.class_ {f fO : Version → α → Py Bytes} {l : List Item} {v : Version} {x : α} (h : WritesO (f v x) (fO v x) l) :
    WritesO (writeClass f x v) (writeClass fO x v) l := h

theorem WritesO.requires2 {c d : Prop} [Decidable c] [Decidable d] {w wO : Py Bytes} {its : List Item} (h : WritesO w wO its) :
    WritesO (if ¬ (c ∧ d) then .error .assertionError else w) wO
      (Layout.requires c .assertionError ++ (Layout.requires d .assertionError ++ its)) := by
  have : (if ¬ (c ∧ d) then .error .assertionError else w) = (if c then (if d then w else .error .assertionError) else .error .assertionError : Py Bytes) := by
    by_cases hc : c <;> by_cases hd : d <;> simp [hc, hd]
  rw [this]
  exact WritesO.requires (WritesO.requires h)

set_option maxRecDepth 4000 in
theorem DatFile.writesAtO {v : Version} {x : DatFile} (hv : Version.ofStr x.version = .ok v) :
    WritesO x.toBytes x.toBytesO (x.layoutAt v) := by
  unfold DatFile.toBytes DatFile.toBytesGiven DatFile.toBytesO DatFile.toBytesGivenO
  rw [hv]
  dsimp only
  unfold DatFile.layoutAt
  rw [List.flatten_cons, List.flatten_cons]
  refine WritesO.requires2 ?_
  have ht : WritesO (writeInt16 x.terrains_used) (writeInt16 x.terrains_used) x.terrainItems := by
    unfold DatFile.terrains_used DatFile.terrainItems DatFile.terrainCount
    cases x.terrain_restrictions with
    | nil => exact .plain Writes.idle2 (Plain.item (fun _ _ h => (by cases h)))
    | cons r l => exact .plain (Writes.count _ 2 true) (Plain.item (fun _ _ h => (by cases h)))
  refine .cons (.plain (Writes.fixedText _ _) (Plain.item (fun _ _ h => (by cases h)))) ?_
  refine .cons (.plain (Writes.countI16 _) (Plain.countI16 _)) (.cons ht ?_)
  refine .cons (.plain (Writes.i32s _) (Plain.each Plain.i32 _)) (.cons (.plain (Writes.i32s _) (Plain.each Plain.i32 _)) ?_)
  refine .cons (WritesO.each _ fun y _ => TerrainRestriction.writesO v y) ?_
  writesO
  · unfold DatFile.graphic_pointers; exact .plain (Writes.pointers rfl fun _ => rfl) (Plain.pointers _)
  · exact WritesO.class_ (RandomMaps.writesO v x.random_maps)
  · refine .same (Writes.classesI _) ?_
    rw [mem_causes_each]
    rintro ⟨c, -, h⟩
    exact absurd ((Civ.causes_iff (by simp [PlainErr])).1 h).1 nofun

theorem DatFile.writesO (x : DatFile) : WritesO x.toBytes x.toBytesO x.layout := by
  unfold DatFile.layout
  have h := ofStr_eq x.version
  cases hl : writableVersions.lookup x.version with
  | some v => rw [hl] at h; exact DatFile.writesAtO h
  | none =>
    rw [hl] at h
    unfold DatFile.toBytes DatFile.toBytesGiven DatFile.toBytesO DatFile.toBytesGivenO
    rw [h]
    refine .same Writes.fail ?_
    rw [mem_causes_requires]
    exact fun k => absurd k.2 nofun

end Genie
