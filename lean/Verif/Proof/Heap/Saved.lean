import Verif.Proof.Heap.Written
import Verif.Spec.Versioned
import Verif.Model.Readme
/-! # Lemmas for C47: what was read converts, and has tuples of the right length -/

namespace Genie

theorem Converts.optObj {f g : α → ObjTree} (h : ∀ x, Converts (f x) (g x)) : ∀ o : Option α, Converts (Genie.optObj f o) (Genie.optObj g o)
  | Option.none => .none
  | some x => h x

theorem ConvertsItems.map {f g : α → ObjTree} (h : ∀ x, Converts (f x) (g x)) : ∀ l : List α, ConvertsItems (l.map f) (l.map g)
  | [] => .nil
  | x :: l => .cons (h x) (ConvertsItems.map h l)

theorem Converts.invulnerability (old : Bool) (x : PyFloat) : Converts (invulnerabilityObj old x) (invulnerabilityObj false x) := by
  unfold invulnerabilityObj
  rw [if_neg (show ¬ (false = true ∧ x = PyFloat.zero) by simp)]
  split
  · next h =>
    obtain ⟨_, rfl⟩ := h
    exact .promote (d := 0) (by decide +kernel)
  · exact .float _

theorem Creatable.converts (old : Bool) (x : Creatable) : Converts (x.object old) (x.object false) := by
  unfold Creatable.object
  refine .obj ?_
  repeat (refine .cons (by first | exact Converts.invulnerability _ _ | exact Converts.refl _) ?_)
  exact .nil

theorem Unit.converts (old : Bool) (x : Unit) : Converts (x.object old) (x.object false) := by
  unfold Unit.object
  refine .obj ?_
  repeat (refine .cons (by first | exact Converts.optObj (Creatable.converts old) _ | exact Converts.refl _) ?_)
  exact .nil

theorem Civ.converts (old : Bool) (x : Civ) : Converts (x.object old) (x.object false) := by
  unfold Civ.object
  refine .obj ?_
  repeat (refine .cons (by first | exact .list (ConvertsItems.map (Converts.optObj (Unit.converts old)) _) | exact Converts.refl _) ?_)
  exact .nil

theorem DatFile.converts (old : Bool) (x : DatFile) : Converts (x.object old) (x.object false) := by
  unfold DatFile.object
  refine .obj ?_
  repeat (refine .cons (by first | exact .list (ConvertsItems.map (Civ.converts old) _) | exact Converts.refl _) ?_)
  exact .nil

theorem DatFile.WFAt.sized {v : Version} {d : DatFile} (h : DatFile.WFAt v d) : d.Sized := by
  intro c hc u hu
  have hw : Unit.WF v u := (h.civs.2 c hc).units.2 _ hu _ rfl
  refine ⟨hw.standing_graphic.1, hw.placement_side_terrain.1, hw.placement_terrain.1, hw.clearance_size.1, fun x hx => ?_, fun x hx => ?_⟩
  · have := hw.creatable
    rw [hx] at this
    exact (this.2 _ rfl).projectile_spawning_area.1
  · have := hw.building
    rw [hx] at this
    exact (this.2 _ rfl).looting_table.1

theorem changeLoom_sized {d d' : DatFile} (h : changeLoom d = .ok d') (hs : d.Sized) : d'.Sized := by
  unfold changeLoom at h
  simp only [bind, Except.bind, pure, Except.pure] at h
  repeat' split at h
  all_goals first | (cases h; done) | skip
  have := Except.ok.inj h
  subst this
  exact hs

theorem popKingTask_sized {c c' : Civ} (h : popKingTask c = .ok c') (hs : c.Sized) : c'.Sized := by
  unfold popKingTask at h
  simp only [bind, Except.bind, pure, Except.pure] at h
  cases ho : getItem c.units 434 with
  | error e => rw [ho] at h; cases h
  | ok o =>
  rw [ho] at h
  dsimp only at h
  cases hu : notNone o with
  | error e => rw [hu] at h; cases h
  | ok u =>
  rw [hu] at h
  dsimp only at h
  cases hb : notNone u.bird with
  | error e => rw [hb] at h; cases h
  | ok b =>
  rw [hb] at h
  dsimp only at h
  cases ht : popped b.tasks with
  | error e => rw [ht] at h; cases h
  | ok t =>
  rw [ht] at h
  have := Except.ok.inj h
  subst this
  intro u' hu'
  rcases List.mem_or_eq_of_mem_set hu' with h1 | h1
  · exact hs u' h1
  · cases h1
    have hm : some u ∈ c.units := by
      cases o with
      | none => cases hu
      | some y =>
        cases hu
        unfold getItem at ho
        split at ho
        · next h3 => cases ho; exact List.mem_of_getElem? h3
        · cases ho
    exact hs u hm

theorem mapM_sized : ∀ {cs cs' : List Civ}, cs.mapM popKingTask = .ok cs' → (∀ c ∈ cs, c.Sized) → ∀ c ∈ cs', c.Sized
  | [], cs', h, _ => by cases h; intro c hc; cases hc
  | c :: cs, cs', h, hs => by
    rw [List.mapM_cons] at h
    simp only [bind, Except.bind, pure, Except.pure] at h
    cases h1 : popKingTask c with
    | error e => rw [h1] at h; cases h
    | ok c1 =>
    rw [h1] at h
    dsimp only at h
    cases h2 : cs.mapM popKingTask with
    | error e => rw [h2] at h; cases h
    | ok cs1 =>
    rw [h2] at h
    cases h
    intro x hx
    rcases List.mem_cons.mp hx with rfl | hx
    · exact popKingTask_sized h1 (hs c List.mem_cons_self)
    · exact mapM_sized h2 (fun y hy => hs y (List.mem_cons_of_mem _ hy)) x hx

theorem changeKings_sized {d d' : DatFile} (h : changeKings d = .ok d') (hs : d.Sized) : d'.Sized := by
  unfold changeKings at h
  simp only [bind, Except.bind, pure, Except.pure] at h
  split at h
  · cases h
  · next cs hc =>
    have := Except.ok.inj h
    subst this
    exact mapM_sized hc hs

end Genie
