import Verif.Spec.Forest
/-! # When an operation has a meaning on values -/

namespace Genie
open HReader ObjTree

theorem Forest.arg_none {F : Forest} {v : Arg} (h : F.arg v = Option.none) :
    ∃ k r p, v = .object k ∧ (F.value k).immutable = false ∧ F.spots[k]? = some (r, p) ∧ p ≠ [] := by
  cases v with
  | object k =>
    unfold Forest.arg at h
    dsimp only at h
    split at h
    · cases h
    · rename_i hi
      have hi' : (F.value k).immutable = false := by simpa using hi
      cases e : F.spots[k]? with
      | none =>
        have : F.value k = .none := by unfold Forest.value; rw [e]
        rw [this] at hi'; cases hi'
      | some q =>
        obtain ⟨r, p⟩ := q
        rw [e] at h
        cases p with
        | nil => cases h
        | cons a b => exact ⟨k, r, _, rfl, hi', e, by simp⟩
  | _ => cases h

theorem Forest.arg_some {F : Forest} {v : Arg} {t : ObjTree} {r : Nat} (h : F.arg v = some (t, some r)) :
    ∃ k, v = .object k ∧ (F.value k).immutable = false ∧ F.spots[k]? = some (r, []) := by
  cases v with
  | object k =>
    unfold Forest.arg at h
    dsimp only at h
    split at h
    · cases h
    · rename_i hi
      have hi' : (F.value k).immutable = false := by simpa using hi
      cases e : F.spots[k]? with
      | none => rw [e] at h; cases h
      | some q =>
        obtain ⟨r', p⟩ := q
        rw [e] at h
        cases p with
        | nil => cases h; exact ⟨k, rfl, hi', e⟩
        | cons a b => cases h
  | _ => cases h

theorem mapM_none {f : α → Option β} : ∀ {l : List α}, l.mapM f = Option.none → ∃ x ∈ l, f x = Option.none
  | [], h => by simp at h
  | x :: l, h => by
    rw [List.mapM_cons] at h
    cases e : f x with
    | none => exact ⟨x, List.mem_cons_self, e⟩
    | some y =>
      cases e2 : l.mapM f with
      | none =>
        obtain ⟨w, hw, hf⟩ := mapM_none e2
        exact ⟨w, List.mem_cons_of_mem _ hw, hf⟩
      | some ys => rw [e, e2] at h; cases h

theorem mapM_mem {f : α → Option β} : ∀ {l : List α} {ys : List β}, l.mapM f = some ys → ys.length = l.length ∧
    ∀ (i : Nat) (y : β), ys[i]? = some y → ∃ x, l[i]? = some x ∧ f x = some y
  | [], ys, h => by simp at h; subst h; exact ⟨rfl, fun i y h => by simp at h⟩
  | x :: l, ys, h => by
    rw [List.mapM_cons] at h
    cases e : f x with
    | none => rw [e] at h; cases h
    | some y =>
      cases e2 : l.mapM f with
      | none => rw [e, e2] at h; cases h
      | some zs =>
        rw [e, e2] at h
        cases h
        obtain ⟨h1, h2⟩ := mapM_mem e2
        refine ⟨by simp [h1], fun i w hw => ?_⟩
        cases i with
        | zero => simp at hw; subst hw; exact ⟨x, by simp, e⟩
        | succ i => simpa using h2 i w (by simpa using hw)

/-- A list of numbers with a repetition. -/
theorem filterMap_dup {g : β → Option Nat} : ∀ {us : List β}, ¬ (us.filterMap g).Nodup → ∃ (i j : Nat) (u w : β) (r : Nat), i < j ∧ us[i]? = some u ∧ us[j]? = some w ∧
    g u = some r ∧ g w = some r
  | [], h => absurd List.nodup_nil h
  | u :: us, h => by
    have tail : ¬ (us.filterMap g).Nodup → _ := fun k => filterMap_dup k
    have lift : (∃ (i j : Nat) (u w : β) (r : Nat), i < j ∧ us[i]? = some u ∧ us[j]? = some w ∧ g u = some r ∧ g w = some r) →
        ∃ (i j : Nat) (u' w : β) (r : Nat), i < j ∧ (u :: us)[i]? = some u' ∧ (u :: us)[j]? = some w ∧ g u' = some r ∧ g w = some r :=
      fun ⟨i, j, a, b, r, h1, h2, h3, h4, h5⟩ => ⟨i + 1, j + 1, a, b, r, by omega, by simpa using h2, by simpa using h3, h4, h5⟩
    cases e : g u with
    | none => rw [List.filterMap_cons_none e] at h; exact lift (tail h)
    | some r =>
      rw [List.filterMap_cons_some e, List.nodup_cons] at h
      by_cases hm : r ∈ us.filterMap g
      · obtain ⟨w, hw, hr⟩ := List.mem_filterMap.1 hm
        obtain ⟨j, hj, rfl⟩ := List.getElem_of_mem hw
        exact ⟨0, j + 1, u, _, r, by omega, rfl, by rw [List.getElem?_cons_succ, List.getElem?_eq_getElem hj], e, hr⟩
      · exact lift (tail fun k => h ⟨hm, k⟩)

theorem Op.shares_of_args {F : Forest} {op : Op} {home : Option Nat} (hh : ∀ r, home = some r → ∃ o q, op.into = some o ∧ F.spots[o]? = some (r, q))
    (h : F.args home op.puts = Option.none) : op.Shares F := by
  unfold Forest.args at h
  cases e : op.puts.mapM F.arg with
  | none =>
    obtain ⟨v, hv, hn⟩ := mapM_none e
    obtain ⟨k, r, p, rfl, h1, h2, h3⟩ := Forest.arg_none hn
    exact Or.inl ⟨k, r, p, hv, h1, h2, .inl h3⟩
  | some us =>
    rw [e] at h
    obtain ⟨hl, hm⟩ := mapM_mem e
    dsimp only at h
    split at h
    · cases h
    · rename_i hc
      by_cases hd : (us.filterMap (·.2)).Nodup
      · have : ∃ r, home = some r ∧ r ∈ us.filterMap (·.2) := by
          refine Classical.byContradiction fun hx => hc ⟨hd, fun r hr hmem => hx ⟨r, hr, hmem⟩⟩
        obtain ⟨r, hr, hmem⟩ := this
        obtain ⟨u, hu, hur⟩ := List.mem_filterMap.1 hmem
        obtain ⟨i, hi, rfl⟩ := List.getElem_of_mem hu
        obtain ⟨v, hv, hf⟩ := hm i _ (List.getElem?_eq_getElem hi)
        have hf' : F.arg v = some (us[i].1, some r) := by rw [hf]; exact congrArg some (Prod.ext rfl hur)
        obtain ⟨k, rfl, h1, h2⟩ := Forest.arg_some hf'
        exact Or.inl ⟨k, r, [], List.mem_of_getElem? hv, h1, h2, .inr (hh r hr)⟩
      · obtain ⟨i, j, u, w, r, hij, hi, hj, hu, hw⟩ := filterMap_dup hd
        obtain ⟨v1, hv1, hf1⟩ := hm i _ hi
        obtain ⟨v2, hv2, hf2⟩ := hm j _ hj
        obtain ⟨k1, rfl, a1, a2⟩ := Forest.arg_some (t := u.1) (r := r) (by rw [hf1]; exact congrArg some (Prod.ext rfl hu))
        obtain ⟨k2, rfl, b1, b2⟩ := Forest.arg_some (t := w.1) (r := r) (by rw [hf2]; exact congrArg some (Prod.ext rfl hw))
        exact Or.inr (Or.inl ⟨i, j, k1, k2, r, hij, hv1, hv2, a1, a2, b2⟩)

theorem Forest.again_none {ts : List ObjTree} (h : Forest.again ts = Option.none) : ∃ t ∈ ts, t.immutable = false := by
  unfold Forest.again at h
  split at h
  · cases h
  · rename_i hn
    refine Classical.byContradiction fun hx => hn fun t ht => ?_
    cases e : t.immutable with
    | true => rfl
    | false => exact absurd ⟨t, ht, e⟩ hx

theorem args_nil (F : Forest) (home : Option Nat) : F.args home [] = some [] := by
  unfold Forest.args
  simp

theorem args_one {F : Forest} {home : Option Nat} {v : Arg} {us} (h : F.args home [v] = some us) : ∃ u, us = [u] := by
  unfold Forest.args at h
  cases e : [v].mapM F.arg with
  | none => rw [e] at h; cases h
  | some xs =>
    rw [e] at h
    dsimp only at h
    split at h
    · have h := Option.some.inj h
      subst h
      have := (mapM_mem e).1
      match xs, this with
      | [u], _ => exact ⟨u, rfl⟩
    · cases h

end Genie
