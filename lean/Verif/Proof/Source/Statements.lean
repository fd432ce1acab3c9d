import Verif.Proof.Source.Grammar
import Verif.Spec.PythonStatements
/-!
# The parser and the grammar of statements (for C72)
-/

namespace Genie.Src.Text

theorem exprSound {n : Nat} {ts rest : List Tok} {e : Ex} (h : parse n .expr ts = some (e, rest)) : ∃ u, ts = u ++ rest ∧ Derives .expression e u :=
  parse_sound n .expr ts e rest h

theorem wholeExpr_some {n : Nat} {α : Type u} {ts : List Tok} {k : Ex → Option α} {r : α} (h : wholeExpr n ts k = some r) :
    ∃ e, Derives .expression e ts ∧ k e = some r := by
  obtain ⟨e, rest, h1, h2⟩ := then_some h
  cases rest with
  | nil =>
    obtain ⟨u, rfl, hu⟩ := exprSound h1
    exact ⟨e, by rwa [List.append_nil], h2⟩
  | cons t ts => cases h2

theorem headExpr_some {n : Nat} {α : Type u} {ts : List Tok} {k : Ex → Option α} {r : α} (h : headExpr n ts k = some r) :
    ∃ e u, ts = u ++ [sym n!":"] ∧ Derives .expression e u ∧ k e = some r := by
  obtain ⟨e, rest, h1, h2⟩ := then_some h
  obtain ⟨u, rfl, hu⟩ := exprSound h1
  obtain ⟨ts', rfl, h3⟩ := expect_some h2
  cases ts' with
  | nil => exact ⟨e, u, rfl, hu, h3⟩
  | cons t ts => cases h3

theorem returned_some {n : Nat} {α : Type u} {ts : List Tok} {k : Ex → Option α} {r : α} (h : returned n ts k = some r) :
    (∃ e, Derives .expression e ts ∧ k e = some r) ∨
    ∃ e es u v, ts = u ++ sym n!"," :: v ∧ Derives .expression e u ∧ Derives .elements es v ∧ k (.tuple (.arg e es)) = some r := by
  obtain ⟨e, rest, h1, h2⟩ := then_some h
  obtain ⟨u, rfl, hu⟩ := exprSound h1
  cases rest with
  | nil => exact Or.inl ⟨e, by rwa [List.append_nil], h2⟩
  | cons t ts =>
    rcases cond_some h2 with ⟨ht, h3⟩ | ⟨_, h3⟩
    · obtain ⟨es, rest, h4, h5⟩ := then_some h3
      obtain ⟨w, hw, v, rfl, hv⟩ := parse_sound _ _ _ _ _ h4
      cases rest with
      | nil =>
        rw [List.append_nil] at hw
        cases List.append_cancel_right hw
        rw [is_eq ht]
        exact Or.inr ⟨e, es, u, ts, rfl, hu, hv, h5⟩
      | cons _ _ => cases h5
    · cases h3

theorem or_some {c : Nat} {a b : Nat} (h : (Nat.beq c a || Nat.beq c b) = true) : c = a ∨ c = b := by
  rcases Bool.or_eq_true _ _ ▸ h with h | h
  · exact Or.inl (Nat.eq_of_beq_eq_true h)
  · exact Or.inr (Nat.eq_of_beq_eq_true h)

theorem ne_of_beq_false {a b : Nat} (h : Nat.beq a b = false) : a ≠ b := fun e => by rw [e, Nat.beq_refl] at h; cases h

theorem skipTokens_sound (stop : Nat → Bool) : ∀ (ts : List Tok) (d : Nat), (skipTokens stop d ts).head? ≠ some .bad →
    ∃ u, ts = u ++ skipTokens stop d ts ∧ Annotation stop d u
  | [], 0, _ => ⟨[], rfl, .nil⟩
  | [], _ + 1, h => absurd rfl h
  | t :: ts, d, h => by
    have ih := skipTokens_sound stop ts
    have other (ht : t ≠ .bad) (ho : ∀ c, t ≠ sym c) (e : skipTokens stop d (t :: ts) = skipTokens stop d ts) :
        ∃ u, t :: ts = u ++ skipTokens stop d (t :: ts) ∧ Annotation stop d u := by
      rw [e] at h ⊢
      obtain ⟨u, hu, ha⟩ := ih d h
      exact ⟨t :: u, by rw [List.cons_append, ← hu], .other ht ho ha⟩
    cases t with
    | name x => exact other (fun h => by cases h) (fun _ h => by cases h) (by cases d <;> rfl)
    | int x => exact other (fun h => by cases h) (fun _ h => by cases h) (by cases d <;> rfl)
    | float x => exact other (fun h => by cases h) (fun _ h => by cases h) (by cases d <;> rfl)
    | str x => exact other (fun h => by cases h) (fun _ h => by cases h) (by cases d <;> rfl)
    | bytes x => exact other (fun h => by cases h) (fun _ h => by cases h) (by cases d <;> rfl)
    | bad => cases d <;> exact absurd rfl h
    | op c =>
      cases ho : (Nat.beq c n!"(" || Nat.beq c n!"[") with
      | true =>
        have e : skipTokens stop d (.op c :: ts) = skipTokens stop (d + 1) ts := by cases d <;> simp only [skipTokens, ho, cond_true]
        rw [e] at h ⊢
        obtain ⟨u, hu, ha⟩ := ih (d + 1) h
        exact ⟨sym c :: u, by rw [List.cons_append, ← hu], .open (or_some ho) ha⟩
      | false =>
        have hn := Bool.or_eq_false_iff.1 ho
        cases hc : (Nat.beq c n!")" || Nat.beq c n!"]") with
        | true =>
          cases d with
          | zero =>
            have e : skipTokens stop 0 (.op c :: ts) = .op c :: ts := by
              simp only [skipTokens, ho, cond_false, Bool.or_assoc, hc, Bool.or_true, cond_true]
            rw [e]
            exact ⟨[], rfl, .nil⟩
          | succ d =>
            have e : skipTokens stop (d + 1) (.op c :: ts) = skipTokens stop d ts := by simp only [skipTokens, ho, cond_false, hc, cond_true]
            rw [e] at h ⊢
            obtain ⟨u, hu, ha⟩ := ih d h
            exact ⟨sym c :: u, by rw [List.cons_append, ← hu], .close (or_some hc) ha⟩
        | false =>
          have hm := Bool.or_eq_false_iff.1 hc
          have no : c ∉ [n!"(", n!"[", n!")", n!"]"] := by
            simp only [List.mem_cons, List.not_mem_nil, or_false, not_or]
            exact ⟨ne_of_beq_false hn.1, ne_of_beq_false hn.2, ne_of_beq_false hm.1, ne_of_beq_false hm.2⟩
          have go (hs : d = 0 → stop c = false) (e : skipTokens stop d (.op c :: ts) = skipTokens stop d ts) :
              ∃ u, .op c :: ts = u ++ skipTokens stop d (.op c :: ts) ∧ Annotation stop d u := by
            rw [e] at h ⊢
            obtain ⟨u, hu, ha⟩ := ih d h
            exact ⟨sym c :: u, by rw [List.cons_append, ← hu], .operator no hs ha⟩
          cases d with
          | zero =>
            cases hs : stop c with
            | true =>
              have e : skipTokens stop 0 (.op c :: ts) = .op c :: ts := by simp only [skipTokens, ho, cond_false, hs, Bool.true_or, cond_true]
              rw [e]
              exact ⟨[], rfl, .nil⟩
            | false => exact go (fun _ => hs) (by simp only [skipTokens, ho, cond_false, Bool.or_assoc, hc, hs, Bool.or_false])
          | succ d => exact go (fun h => by cases h) (by simp only [skipTokens, ho, cond_false, hc])

theorem skipAnnotation_sound {stop : Nat → Bool} {ts rest : List Tok} (h : skipAnnotation stop ts = rest) (hr : rest.head? ≠ some .bad) :
    ∃ u, ts = u ++ rest ∧ Annotation stop 0 u ∧ u ≠ [] := by
  cases ts with
  | nil => cases h; exact absurd rfl hr
  | cons t ts =>
    have key (h : skipTokens stop 0 (t :: ts) = rest) (hne : rest ≠ t :: ts) : ∃ u, t :: ts = u ++ rest ∧ Annotation stop 0 u ∧ u ≠ [] := by
      obtain ⟨u, hu, ha⟩ := skipTokens_sound stop (t :: ts) 0 (h ▸ hr)
      rw [h] at hu
      exact ⟨u, hu, ha, fun e => hne (by rw [hu, e]; rfl)⟩
    have short (h : skipTokens stop 0 (t :: ts) = skipTokens stop 0 ts) : skipTokens stop 0 (t :: ts) = rest → rest ≠ t :: ts := by
      intro h1 h2
      rw [h1] at h
      obtain ⟨v, hv, _⟩ := skipTokens_sound stop ts 0 (h ▸ hr)
      have := congrArg List.length hv
      rw [← h, h2, List.length_append, List.length_cons] at this
      omega
    cases t with
    | name x => exact key h (short rfl h)
    | int x => exact key h (short rfl h)
    | float x => exact key h (short rfl h)
    | str x => exact key h (short rfl h)
    | bytes x => exact key h (short rfl h)
    | bad => cases h; exact absurd rfl hr
    | op c =>
      simp only [skipAnnotation] at h
      cases hs : (stop c || Nat.beq c n!")" || Nat.beq c n!"]") with
      | true => rw [hs] at h; cases h; exact absurd rfl hr
      | false =>
        rw [hs] at h
        refine key h fun e => ?_
        rw [e] at h
        replace h : skipTokens stop 0 (.op c :: ts) = .op c :: ts := h
        cases ho : (Nat.beq c n!"(" || Nat.beq c n!"[") with
        | true =>
          have e1 : skipTokens stop 0 (.op c :: ts) = skipTokens stop 1 ts := by simp only [skipTokens, ho, cond_true]
          rw [e1] at h
          obtain ⟨v, hv, _⟩ := skipTokens_sound stop ts 1 (by rw [h]; intro h; cases h)
          have := congrArg List.length hv
          rw [h, List.length_append, List.length_cons] at this
          omega
        | false =>
          have e1 : skipTokens stop 0 (.op c :: ts) = skipTokens stop 0 ts := by simp only [skipTokens, ho, cond_false, hs]
          rw [e1] at h
          obtain ⟨v, hv, _⟩ := skipTokens_sound stop ts 0 (by rw [h]; intro h; cases h)
          have := congrArg List.length hv
          rw [h, List.length_append, List.length_cons] at this
          omega

theorem targets_some {α : Type u} : ∀ {ts : List Tok} {k : List Name → List Tok → Option α} {r : α}, targets ts k = some r →
    ∃ xs v rest, ts = v ++ sym n!"=" :: rest ∧ Names xs v ∧ k xs rest = some r
  | .name x :: .op c :: ts, k, r, h => by
    rw [targets] at h
    replace h := cond_some h
    rcases h with ⟨_, h⟩ | ⟨hx, h⟩
    · cases h
    have ix := isKeyword_false.1 hx
    rcases cond_some h with ⟨hc, h⟩ | ⟨_, h⟩
    · cases Nat.eq_of_beq_eq_true hc
      obtain ⟨xs, v, rest, rfl, hv, hk⟩ := targets_some h
      exact ⟨x :: xs, .name x :: sym n!"," :: v, rest, rfl, .more ix hv, hk⟩
    rcases cond_some h with ⟨hc, h⟩ | ⟨_, h⟩
    · cases Nat.eq_of_beq_eq_true hc
      exact ⟨[x], [.name x], ts, rfl, .one ix, h⟩
    · cases h
  | [], _, _, h => by cases h
  | .op _ :: _, _, _, h => by cases h
  | .int _ :: _, _, _, h => by cases h
  | .float _ :: _, _, _, h => by cases h
  | .str _ :: _, _, _, h => by cases h
  | .bytes _ :: _, _, _, h => by cases h
  | .bad :: _, _, _, h => by cases h
  | [.name _], _, _, h => by cases h
  | .name _ :: .name _ :: _, _, _, h => by cases h
  | .name _ :: .int _ :: _, _, _, h => by cases h
  | .name _ :: .float _ :: _, _, _, h => by cases h
  | .name _ :: .str _ :: _, _, _, h => by cases h
  | .name _ :: .bytes _ :: _, _, _, h => by cases h
  | .name _ :: .bad :: _, _, _, h => by cases h

theorem annotated_some {n : Nat} {α : Type u} {ts : List Tok} {k : Ex → Option α} {r : α}
    (h : (expect n!"=" (skipAnnotation (Nat.beq n!"=") ts) fun ts => wholeExpr n ts k) = some r) :
    ∃ v u e, ts = v ++ sym n!"=" :: u ∧ Annotation (Nat.beq n!"=") 0 v ∧ v ≠ [] ∧ Derives .expression e u ∧ k e = some r := by
  replace h := expect_some h
  obtain ⟨u, hu, h⟩ := h
  obtain ⟨v, rfl, hv, hne⟩ := skipAnnotation_sound hu (fun h => by cases h)
  replace h := wholeExpr_some h
  obtain ⟨e, he, h⟩ := h
  exact ⟨v, u, e, rfl, hv, hne, he, h⟩

theorem simple_some {n : Nat} {α : Type u} {ts : List Tok} {k : (St → St) → Option α} {r : α} (h : simple n ts k = some r) :
    ∃ f, SimpleStatement f ts ∧ k f = some r := by
  rw [simple] at h
  replace h := cond_some h
  rcases h with ⟨ha, h⟩ | ⟨_, h⟩
  · replace h := wholeExpr_some h
    obtain ⟨e, he, h⟩ := h
    exact ⟨_, nextName_eq ha ▸ .assert he, h⟩
  replace h := then_some h
  obtain ⟨t, rest, hp, h⟩ := h
  obtain ⟨u, rfl, hu⟩ := exprSound hp
  clear hp
  cases rest with
  | nil => exact ⟨_, by rw [List.append_nil]; exact .expression hu, h⟩
  | cons o rest =>
    cases o with
    | op c =>
      replace h := cond_some h
      rcases h with ⟨hc, h⟩ | ⟨_, h⟩
      · cases Nat.eq_of_beq_eq_true hc
        replace h := wholeExpr_some h
        obtain ⟨e, he, h⟩ := h
        cases t with
        | name x => exact ⟨_, .assign hu he, h⟩
        | attr o a => exact ⟨_, .setAttr hu he, h⟩
        | _ => cases h
      · cases t with
        | name x =>
          replace h := cond_some h
          rcases h with ⟨hc, h⟩ | ⟨_, h⟩
          · cases Nat.eq_of_beq_eq_true hc
            replace h := annotated_some h
            obtain ⟨v, w, e, rfl, hv, hne, he, h⟩ := h
            exact ⟨_, by simpa only [List.append_assoc, List.cons_append] using SimpleStatement.annotated hu hv hne he, h⟩
          replace h := cond_some h
          rcases h with ⟨hc, h⟩ | ⟨_, h⟩
          · cases Nat.eq_of_beq_eq_true hc
            replace h := wholeExpr_some h
            obtain ⟨e, he, h⟩ := h
            exact ⟨_, .augmented hu .add he, h⟩
          replace h := cond_some h
          rcases h with ⟨hc, h⟩ | ⟨_, h⟩
          · cases Nat.eq_of_beq_eq_true hc
            replace h := wholeExpr_some h
            obtain ⟨e, he, h⟩ := h
            exact ⟨_, .augmented hu .sub he, h⟩
          replace h := cond_some h
          rcases h with ⟨hc, h⟩ | ⟨_, h⟩
          · cases Nat.eq_of_beq_eq_true hc
            replace h := wholeExpr_some h
            obtain ⟨e, he, h⟩ := h
            exact ⟨_, .augmented hu .mul he, h⟩
          replace h := cond_some h
          rcases h with ⟨hc, h⟩ | ⟨_, h⟩
          · cases Nat.eq_of_beq_eq_true hc
            replace h := targets_some h
            obtain ⟨xs, v, w, rfl, hv, h⟩ := h
            replace h := wholeExpr_some h
            obtain ⟨e, he, h⟩ := h
            exact ⟨_, by simpa only [List.append_assoc, List.cons_append] using SimpleStatement.unpack hu hv he, h⟩
          · cases h
        | attr o a =>
          replace h := cond_some h
          rcases h with ⟨hc, h⟩ | ⟨_, h⟩
          · cases Nat.eq_of_beq_eq_true hc
            replace h := annotated_some h
            obtain ⟨v, w, e, rfl, hv, hne, he, h⟩ := h
            exact ⟨_, by simpa only [List.append_assoc, List.cons_append] using SimpleStatement.annotatedAttr hu hv hne he, h⟩
          · cases h
        | _ => cases h
    | _ => cases h

theorem thenSt_some {α : Type u} {r : Option (St × List Line)} {k : St → List Line → Option α} {x : α} (h : thenSt r k = some x) :
    ∃ s ls, r = some (s, ls) ∧ k s ls = some x := by
  cases r with
  | none => cases h
  | some p => exact ⟨p.1, p.2, rfl, h⟩

/-- What the lines that the parser took are. -/
def BlockSound : Work → St → List Line → List Line → Prop
  | .block ind, st, used, rest => Block (.statements ind) st used ∧ (used = [] → blockEnds ind rest = true)
  | .deeper ind, st, used, _ => Block (.suite ind) st used
  | .orElse ind, st, used, _ => Block (.orElse ind) st used

theorem block_sound : ∀ (n : Nat) (w : Work) (ls : List Line) (st : St) (rest : List Line), block n w ls = some (st, rest) →
    ∃ used, ls = used ++ rest ∧ BlockSound w st used rest
  | 0, _, _, _, _, h => by cases h
  | n + 1, w, ls, st, rest, h => by
    have ih := block_sound n
    cases w with
    | deeper ind =>
      cases ls with
      | nil => cases h
      | cons l ls =>
        obtain ⟨i, ts⟩ := l
        replace h := cond_some h
        rcases h with ⟨_, h⟩ | ⟨hi, h⟩
        · cases h
        obtain ⟨used, hu, hb, hne⟩ := ih _ _ _ _ h
        refine ⟨used, hu, .suite (i := i) ?_ (fun e => ?_) hb⟩
        · have : ¬i ≤ ind := fun h => by rw [Nat.ble_eq_true_of_le h] at hi; cases hi
          omega
        · have := hne e
          rw [e] at hu
          cases (hu : (i, ts) :: ls = rest)
          rw [blockEnds] at this
          have := Nat.le_of_ble_eq_true this
          omega
    | orElse ind =>
      cases ls with
      | nil => cases h; exact ⟨[], rfl, .noElse⟩
      | cons l ls =>
        obtain ⟨i, ts⟩ := l
        replace h := cond_some h
        rcases h with ⟨hi, h⟩ | ⟨_, h⟩
        · rw [Bool.and_eq_true] at hi
          have e0 := Nat.eq_of_beq_eq_true hi.1
          subst e0
          replace h := cond_some h
          rcases h with ⟨hc, h⟩ | ⟨_, h⟩
          · rw [Bool.and_eq_true] at hc
            obtain ⟨used, rfl, hb⟩ := ih _ _ _ _ h
            have e : ts = [key n!"else", sym n!":"] := by
              rw [nextName_eq hi.2, nextIs_eq hc.1, List.isEmpty_iff.1 hc.2]
            exact ⟨(i, ts) :: used, rfl, by rw [e]; exact .else_ hb⟩
          · cases h
        replace h := cond_some h
        rcases h with ⟨hi, h⟩ | ⟨_, h⟩
        · rw [Bool.and_eq_true] at hi
          have e0 := Nat.eq_of_beq_eq_true hi.1
          subst e0
          replace h := headExpr_some h
          obtain ⟨c, u, hc, hu, h⟩ := h
          replace h := thenSt_some h
          obtain ⟨a, l1, h1, h⟩ := h
          obtain ⟨la, rfl, ha⟩ := ih _ _ _ _ h1
          replace h := thenSt_some h
          obtain ⟨b, l2, h2, h⟩ := h
          obtain ⟨lb, rfl, hb⟩ := ih _ _ _ _ h2
          cases h
          refine ⟨(i, ts) :: la ++ lb, by flat, ?_⟩
          rw [nextName_eq hi.2, hc]
          exact .elif hu ha hb
        · cases h; exact ⟨[], rfl, .noElse⟩
    | block ind =>
      cases ls with
      | nil => cases h; exact ⟨[], rfl, .nil, fun _ => rfl⟩
      | cons l ls =>
        obtain ⟨i, ts⟩ := l
        replace h := cond_some h
        rcases h with ⟨hi, h⟩ | ⟨_, h⟩
        · cases h; exact ⟨[], rfl, .nil, fun _ => hi⟩
        replace h := cond_some h
        rcases h with ⟨hi, h⟩ | ⟨_, h⟩
        · have e0 := Nat.eq_of_beq_eq_true hi
          subst e0
          replace h := cond_some h
          rcases h with ⟨hk, h⟩ | ⟨_, h⟩
          · replace h := cond_some h
            rcases h with ⟨_, h⟩ | ⟨_, h⟩
            · replace h := returned_some h
              rcases h with ⟨e, he, h⟩ | ⟨e, es, u, v, e1, hu, hv, h⟩
              · cases h
                exact ⟨[(i, ts)], rfl, by rw [nextName_eq hk]; exact .ret he, fun h => by cases h⟩
              · cases h
                exact ⟨[(i, ts)], rfl, by rw [nextName_eq hk, e1]; exact .retTuple hu hv, fun h => by cases h⟩
            · cases h
          replace h := cond_some h
          rcases h with ⟨hk, h⟩ | ⟨_, h⟩
          · replace h := cond_some h
            rcases h with ⟨_, h⟩ | ⟨_, h⟩
            · replace h := wholeExpr_some h
              obtain ⟨e, he, h⟩ := h
              cases h
              exact ⟨[(i, ts)], rfl, by rw [nextName_eq hk]; exact .raise he, fun h => by cases h⟩
            · cases h
          replace h := cond_some h
          rcases h with ⟨hk, h⟩ | ⟨_, h⟩
          · replace h := headExpr_some h
            obtain ⟨c, u, hc, hu, h⟩ := h
            replace h := thenSt_some h
            obtain ⟨a, l1, h1, h⟩ := h
            obtain ⟨la, rfl, ha⟩ := ih _ _ _ _ h1
            replace h := thenSt_some h
            obtain ⟨b, l2, h2, h⟩ := h
            obtain ⟨lb, rfl, hb⟩ := ih _ _ _ _ h2
            replace h := thenSt_some h
            obtain ⟨r, l3, h3, h⟩ := h
            obtain ⟨lr, rfl, hr⟩ := ih _ _ _ _ h3
            cases h
            refine ⟨(i, ts) :: la ++ lb ++ lr, by flat, ?_, fun h => by cases h⟩
            rw [nextName_eq hk, hc]
            exact .ite hu ha hb hr.1
          replace h := cond_some h
          rcases h with ⟨hk, h⟩ | ⟨_, h⟩
          · replace h := identifier_some h
            obtain ⟨x, t1, e1, ix, h⟩ := h
            replace h := expectName_some h
            obtain ⟨t2, rfl, h⟩ := h
            replace h := headExpr_some h
            obtain ⟨it, u, rfl, hu, h⟩ := h
            replace h := thenSt_some h
            obtain ⟨b, l2, h2, h⟩ := h
            obtain ⟨lb, rfl, hb⟩ := ih _ _ _ _ h2
            replace h := thenSt_some h
            obtain ⟨r, l3, h3, h⟩ := h
            obtain ⟨lr, rfl, hr⟩ := ih _ _ _ _ h3
            cases h
            refine ⟨(i, ts) :: lb ++ lr, by flat, ?_, fun h => by cases h⟩
            rw [nextName_eq hk, e1]
            exact .forIn ix hu hb hr.1
          · replace h := simple_some h
            obtain ⟨f, hf, h⟩ := h
            replace h := thenSt_some h
            obtain ⟨r, l3, h3, h⟩ := h
            obtain ⟨lr, rfl, hr⟩ := ih _ _ _ _ h3
            cases h
            exact ⟨(i, ts) :: lr, rfl, .simple hf hr.1, fun h => by cases h⟩
        · cases h

/-! ## functions, classes, modules -/

theorem parameterType_some {ts rest : List Tok}
    (h : cond (nextIs n!":" ts) (skipAnnotation (fun c => Nat.beq c n!"," || Nat.beq c n!"=" || Nat.beq c n!")") ts.tail) ts = rest)
    (hr : rest.head? ≠ some .bad) : ∃ u, ts = u ++ rest ∧ ParameterType u := by
  cases hn : nextIs n!":" ts <;> rw [hn] at h
  · cases h; exact ⟨[], rfl, .none⟩
  · obtain ⟨u, hu, ha, hne⟩ := skipAnnotation_sound h hr
    rw [nextIs_eq hn, hu]
    exact ⟨sym n!":" :: u, rfl, .some ha hne⟩

theorem resultType_some {ts rest : List Tok} (h : cond (nextIs n!"->" ts) (skipAnnotation (Nat.beq n!":") ts.tail) ts = rest)
    (hr : rest.head? ≠ some .bad) : ∃ u, ts = u ++ rest ∧ ResultType u := by
  cases hn : nextIs n!"->" ts <;> rw [hn] at h
  · cases h; exact ⟨[], rfl, .none⟩
  · obtain ⟨u, hu, ha, hne⟩ := skipAnnotation_sound h hr
    rw [nextIs_eq hn, hu]
    exact ⟨sym n!"->" :: u, rfl, .some ha hne⟩

theorem defaultValue_some {n : Nat} {ts rest : List Tok} {d : Ex} (h : cond (nextIs n!"=" ts) (parse n .expr ts.tail) (some (.argNil, ts)) = some (d, rest)) :
    ∃ u, ts = u ++ rest ∧ DefaultValue d u := by
  rcases cond_some h with ⟨hn, h⟩ | ⟨_, h⟩
  · obtain ⟨u, hu, he⟩ := exprSound h
    rw [nextIs_eq hn, hu]
    exact ⟨sym n!"=" :: u, rfl, .some he⟩
  · cases h; exact ⟨[], rfl, .none⟩

theorem params_some : ∀ (n : Nat) (ts : List Tok) (ps : List (Name × Ex)) (rest : List Tok), params n ts = some (ps, rest) →
    ∃ u, ts = u ++ sym n!")" :: rest ∧ Parameters ps u
  | 0, _, _, _, h => by cases h
  | n + 1, ts, ps, rest, h => by
    rw [params] at h
    replace h := cond_some h
    rcases h with ⟨hc, h⟩ | ⟨_, h⟩
    · cases h; exact ⟨[], nextIs_eq hc, .nil⟩
    replace h := identifier_some h
    obtain ⟨x, t1, rfl, ix, h⟩ := h
    dsimp only at h
    generalize ht : cond (nextIs n!":" t1) (skipAnnotation (fun c => Nat.beq c n!"," || Nat.beq c n!"=" || Nat.beq c n!")") t1.tail) t1 = t2 at h
    cases hd : cond (nextIs n!"=" t2) (parse n .expr t2.tail) (some (Ex.argNil, t2)) with
    | none => rw [hd] at h; cases h
    | some q =>
      obtain ⟨d, t3⟩ := q
      rw [hd] at h
      dsimp only at h
      obtain ⟨v, rfl, hv⟩ := defaultValue_some hd
      have good (t : Tok) (t4 : List Tok) (e : t3 = t :: t4) (hb : t ≠ .bad) : (v ++ t3).head? ≠ some .bad := by
        cases hv with
        | none => rw [e]; intro h; cases h; exact hb rfl
        | some _ => intro h; cases h
      replace h := cond_some h
      rcases h with ⟨hc, h⟩ | ⟨_, h⟩
      · have e3 := nextIs_eq hc
        obtain ⟨u, rfl, hu⟩ := parameterType_some ht (good _ _ e3 (fun h => by cases h))
        cases hp : params n t3.tail with
        | none => rw [hp] at h; cases h
        | some q =>
          obtain ⟨ps', t5⟩ := q
          rw [hp] at h
          cases h
          obtain ⟨w, hw, hps⟩ := params_some n _ _ _ hp
          rw [e3, hw]
          exact ⟨_, by flat, .cons ix hu hv hps⟩
      · replace h := expect_some h
        obtain ⟨t4, e3, h⟩ := h
        cases h
        obtain ⟨u, rfl, hu⟩ := parameterType_some ht (good _ _ e3 (fun h => by cases h))
        rw [e3]
        exact ⟨_, by flat, .last ix hu hv⟩

theorem function_some {n : Nat} {kind : Kind} {ind : Nat} {ts : List Tok} {ls rest : List Line} {f : Fun} (h : function n kind ind ts ls = some (f, rest)) :
    ∃ used, ls = used ++ rest ∧ FunctionDef ind f ts used ∧ f.kind = kind := by
  rw [function] at h
  replace h := identifier_some h
  obtain ⟨x, t1, rfl, ix, h⟩ := h
  replace h := expect_some h
  obtain ⟨t2, rfl, h⟩ := h
  cases hp : params n t2 with
  | none => rw [hp] at h; cases h
  | some q =>
    obtain ⟨ps, t3⟩ := q
    rw [hp] at h
    dsimp only at h
    obtain ⟨u, rfl, hu⟩ := params_some _ _ _ _ hp
    generalize hr : cond (nextIs n!"->" t3) (skipAnnotation (Nat.beq n!":") t3.tail) t3 = t4 at h
    split at h
    · rename_i c
      replace h := cond_some h
      rcases h with ⟨hc, h⟩ | ⟨_, h⟩
      · cases Nat.eq_of_beq_eq_true hc
        obtain ⟨v, rfl, hv⟩ := resultType_some hr (fun h => by cases h)
        replace h := thenSt_some h
        obtain ⟨body, l1, h1, h⟩ := h
        obtain ⟨used, rfl, hb⟩ := block_sound _ _ _ _ _ h1
        cases h
        refine ⟨used, rfl, ?_, rfl⟩
        have := FunctionDef.mk (kind := kind) ix hu hv hb
        simpa only [List.append_assoc, List.cons_append] using this
      · cases h
    · cases h

theorem kindOf_some {ts : List Tok} {kind : Kind} (h : kindOf ts = some kind) : Decorator kind (sym n!"@" :: ts) := by
  unfold kindOf at h
  split at h
  · rcases cond_some h with ⟨hc, h⟩ | ⟨_, h⟩
    · cases h; cases Nat.eq_of_beq_eq_true hc; exact .classMethod
    rcases cond_some h with ⟨hc, h⟩ | ⟨_, h⟩
    · cases h; cases Nat.eq_of_beq_eq_true hc; exact .staticMethod
    rcases cond_some h with ⟨hc, h⟩ | ⟨_, h⟩
    · cases h; cases Nat.eq_of_beq_eq_true hc; exact .property
    · cases h
  · cases h

theorem thenMembers_some {r : Option (Members × List Line)} {k : Members → Members} {ms : Members} {rest : List Line}
    (h : thenMembers r k = some (ms, rest)) : ∃ ms', r = some (ms', rest) ∧ ms = k ms' := by
  cases r with
  | none => cases h
  | some q => cases h; exact ⟨q.1, rfl, rfl⟩

theorem members_some : ∀ (n ind : Nat) (ls : List Line) (ms : Members) (rest : List Line), members n ind ls = some (ms, rest) →
    ∃ used, ls = used ++ rest ∧ ClassBody ind ms used ∧ (used = [] → blockEnds ind rest = true)
  | 0, _, _, _, _, h => by cases h
  | n + 1, ind, ls, ms, rest, h => by
    have ih := members_some n ind
    rw [members.eq_def] at h
    dsimp only at h
    cases ls with
    | nil => cases h; exact ⟨[], rfl, .nil, fun _ => rfl⟩
    | cons l ls =>
      obtain ⟨i, ts⟩ := l
      replace h := cond_some h
      rcases h with ⟨hi, h⟩ | ⟨_, h⟩
      · cases h; exact ⟨[], rfl, .nil, fun _ => hi⟩
      replace h := cond_some h
      rcases h with ⟨hi, h⟩ | ⟨_, h⟩
      rotate_left
      · cases h
      have e0 := Nat.eq_of_beq_eq_true hi
      subst e0
      replace h := cond_some h
      rcases h with ⟨hd, h⟩ | ⟨_, h⟩
      · cases hk : kindOf ts.tail with
        | none => rw [hk] at h; cases h
        | some kind =>
          rw [hk] at h
          cases ls with
          | nil => cases h
          | cons l ls =>
            obtain ⟨i', ts'⟩ := l
            replace h := cond_some h
            rcases h with ⟨hf, h⟩ | ⟨_, h⟩
            · rw [Bool.and_eq_true] at hf
              have e1 := Nat.eq_of_beq_eq_true hf.1
              subst e1
              cases hg : function n kind i' ts'.tail ls with
              | none => rw [hg] at h; cases h
              | some q =>
                obtain ⟨f, l1⟩ := q
                rw [hg] at h
                obtain ⟨ms', hm, rfl⟩ := thenMembers_some h
                obtain ⟨used, rfl, hfd, hfk⟩ := function_some hg
                obtain ⟨more, rfl, hb, _⟩ := ih _ _ _ hm
                refine ⟨(i', ts) :: (i', ts') :: used ++ more, by flat, ?_, fun h => by cases h⟩
                rw [nextName_eq hf.2, nextIs_eq hd]
                exact .decorated (hfk ▸ kindOf_some hk) hfd hb
            · cases h
      replace h := cond_some h
      rcases h with ⟨hd, h⟩ | ⟨_, h⟩
      · cases hg : function n .method i ts.tail ls with
        | none => rw [hg] at h; cases h
        | some q =>
          obtain ⟨f, l1⟩ := q
          rw [hg] at h
          obtain ⟨ms', hm, rfl⟩ := thenMembers_some h
          obtain ⟨used, rfl, hfd, hfk⟩ := function_some hg
          obtain ⟨more, rfl, hb, _⟩ := ih _ _ _ hm
          refine ⟨(i, ts) :: used ++ more, by flat, ?_, fun h => by cases h⟩
          rw [nextName_eq hd]
          exact .method hfd hfk hb
      replace h := identifier_some h
      obtain ⟨x, t1, rfl, ix, h⟩ := h
      replace h := cond_some h
      rcases h with ⟨hc, h⟩ | ⟨_, h⟩
      · generalize ha : skipAnnotation (Nat.beq n!"=") t1.tail = t2 at h
        cases t2 with
        | nil =>
          obtain ⟨ms', hm, rfl⟩ := thenMembers_some h
          obtain ⟨more, rfl, hb, _⟩ := ih _ _ _ hm
          obtain ⟨u, hu, hau, hne⟩ := skipAnnotation_sound ha (fun h => by cases h)
          rw [List.append_nil] at hu
          refine ⟨_ :: more, rfl, ?_, fun h => by cases h⟩
          rw [nextIs_eq hc, hu]
          exact .field ix hau hne hb
        | cons t t2 =>
          replace h := expect_some h
          obtain ⟨t3, e, h⟩ := h
          cases e
          replace h := wholeExpr_some h
          obtain ⟨d, hde, h⟩ := h
          obtain ⟨ms', hm, rfl⟩ := thenMembers_some h
          obtain ⟨more, rfl, hb, _⟩ := ih _ _ _ hm
          obtain ⟨u, hu, hau, hne⟩ := skipAnnotation_sound ha (fun h => by cases h)
          refine ⟨_ :: more, rfl, ?_, fun h => by cases h⟩
          rw [nextIs_eq hc, hu]
          exact .fieldDefault ix hau hne hde hb
      · replace h := expect_some h
        obtain ⟨t3, rfl, h⟩ := h
        replace h := wholeExpr_some h
        obtain ⟨d, hde, h⟩ := h
        obtain ⟨ms', hm, rfl⟩ := thenMembers_some h
        obtain ⟨more, rfl, hb, _⟩ := ih _ _ _ hm
        exact ⟨_ :: more, rfl, .var ix hde hb, fun h => by cases h⟩

theorem classDef_some {n : Nat} {m : Name} {dataclass : Bool} {ts : List Tok} {ls rest : List Line} {c : Cls} (h : classDef n m dataclass ts ls = some (c, rest)) :
    ∃ used, ls = used ++ rest ∧ ClassDef m dataclass c ts used := by
  rw [classDef] at h
  replace h := identifier_some h
  obtain ⟨x, t1, rfl, ix, h⟩ := h
  have hbase (b : Name) (t2 : List Tok) (hb : cond (nextIs n!"(" t1) (identifier t1.tail fun b ts => expect n!")" ts fun ts => some (b, ts))
      (some (n!"object", t1)) = some (b, t2)) : ∃ u, t1 = u ++ t2 ∧ BaseClass b u := by
    rcases cond_some hb with ⟨hp, hb⟩ | ⟨_, hb⟩
    · obtain ⟨y, t3, e3, iy, hb⟩ := identifier_some hb
      obtain ⟨t4, rfl, hb⟩ := expect_some hb
      cases hb
      rw [nextIs_eq hp, e3]
      exact ⟨[sym n!"(", .name b, sym n!")"], rfl, .named iy⟩
    · cases hb; exact ⟨[], rfl, .object⟩
  split at h
  · rename_i base colon hb
    obtain ⟨u, rfl, hu⟩ := hbase _ _ hb
    replace h := cond_some h
    rcases h with ⟨hc, h⟩ | ⟨_, h⟩
    · cases Nat.eq_of_beq_eq_true hc
      split at h
      · rename_i i ts' ls'
        cases hm : members n (i + 1) ((i + 1, ts') :: ls') with
        | none => rw [hm] at h; cases h
        | some q =>
          obtain ⟨ms, l1⟩ := q
          rw [hm] at h
          cases h
          obtain ⟨used, e, hcb, hne⟩ := members_some _ _ _ _ _ hm
          refine ⟨used, e, .mk ix hu (Nat.succ_pos i) (fun h0 => ?_) hcb⟩
          have := hne h0
          rw [h0] at e
          cases (e : (i + 1, ts') :: ls' = rest)
          have := Nat.le_of_ble_eq_true this
          omega
      · cases h
    · cases h
  · cases h

theorem names_some : ∀ {ts : List Tok} {xs : List Name}, names ts = some xs → Names xs ts
  | [.name x], xs, h => by
    rw [names] at h
    rcases cond_some h with ⟨_, h⟩ | ⟨hx, h⟩
    · cases h
    · cases h; exact .one (isKeyword_false.1 hx)
  | .name x :: .op c :: ts, xs, h => by
    rw [names] at h
    rcases cond_some h with ⟨hc, h⟩ | ⟨_, h⟩
    · rw [Bool.and_eq_true, Bool.not_eq_true'] at hc
      cases hn : names ts with
      | none => rw [hn] at h; cases h
      | some ys =>
        rw [hn] at h
        cases h
        cases Nat.eq_of_beq_eq_true hc.1
        exact .more (isKeyword_false.1 hc.2) (names_some hn)
    · cases h
  | [], _, h => by cases h
  | .op _ :: _, _, h => by cases h
  | .int _ :: _, _, h => by cases h
  | .float _ :: _, _, h => by cases h
  | .str _ :: _, _, h => by cases h
  | .bytes _ :: _, _, h => by cases h
  | .bad :: _, _, h => by cases h
  | .name _ :: .name _ :: _, _, h => by cases h
  | .name _ :: .int _ :: _, _, h => by cases h
  | .name _ :: .float _ :: _, _, h => by cases h
  | .name _ :: .str _ :: _, _, h => by cases h
  | .name _ :: .bytes _ :: _, _, h => by cases h
  | .name _ :: .bad :: _, _, h => by cases h

theorem thenParsed_some {r : Option Parsed} {k : Parsed → Parsed} {p : Parsed} (h : thenParsed r k = some p) : ∃ p', r = some p' ∧ p = k p' := by
  cases r with
  | none => cases h
  | some q => cases h; exact ⟨q, rfl, rfl⟩

theorem constant_some {n : Nat} {ts : List Tok} {x : Name} {e : Ex} (h : constant n ts = some (x, e)) :
    ∃ u, ts = .name x :: sym n!"=" :: u ∧ Identifier x ∧ Derives .expression e u := by
  obtain ⟨y, t1, rfl, iy, h⟩ := identifier_some h
  obtain ⟨t2, rfl, h⟩ := expect_some h
  obtain ⟨e', he, h⟩ := wholeExpr_some h
  cases h
  exact ⟨t2, rfl, iy, he⟩

theorem moduleItems_some (m : Name) (program : Bool) : ∀ (n : Nat) (ls : List Line) (p : Parsed), moduleItems n m program ls = some p →
    ModuleText m program p ls
  | 0, _, _, h => by cases h
  | n + 1, ls, p, h => by
    have ih := moduleItems_some m program n
    rw [moduleItems.eq_def] at h
    dsimp only at h
    split at h
    · cases h; exact .nil
    · rename_i ts ls
      replace h := cond_some h
      rcases h with ⟨hk, h⟩ | ⟨_, h⟩
      · cases hn : names ts.tail with
        | none => rw [hn] at h; cases h
        | some xs =>
          rw [hn] at h
          obtain ⟨p', hp, rfl⟩ := thenParsed_some h
          rw [nextName_eq hk]
          exact .import_ (names_some hn) (ih _ _ hp)
      replace h := cond_some h
      rcases h with ⟨hk, h⟩ | ⟨_, h⟩
      · split at h
        · rename_i package dot l t1 ht
          replace h := cond_some h
          rcases h with ⟨hc, h⟩ | ⟨_, h⟩
          · rw [Bool.and_eq_true] at hc
            cases Nat.eq_of_beq_eq_true hc.1
            cases Nat.eq_of_beq_eq_true hc.2
            replace h := expectName_some h
            obtain ⟨t2, rfl, h⟩ := h
            cases hn : names t2 with
            | none => rw [hn] at h; cases h
            | some xs =>
              rw [hn] at h
              obtain ⟨p', hp, rfl⟩ := thenParsed_some h
              rw [nextName_eq hk, ht]
              exact .fromPackage (names_some hn) (ih _ _ hp)
          · cases h
        · rename_i l t1 _ ht
          replace h := expectName_some h
          obtain ⟨t2, rfl, h⟩ := h
          cases hn : names t2 with
          | none => rw [hn] at h; cases h
          | some xs =>
            rw [hn] at h
            obtain ⟨p', hp, rfl⟩ := thenParsed_some h
            rw [nextName_eq hk, ht]
            exact .fromLibrary (names_some hn) (ih _ _ hp)
        · cases h
      replace h := cond_some h
      rcases h with ⟨hk, h⟩ | ⟨_, h⟩
      · replace h := wholeExpr_some h
        obtain ⟨d, hd, h⟩ := h
        split at h
        · rename_i f k ts' ls''
          replace h := cond_some h
          rcases h with ⟨hc, h⟩ | ⟨_, h⟩
          · rw [Bool.and_eq_true, Bool.and_eq_true] at hc
            cases Nat.eq_of_beq_eq_true hc.1.1
            cases Nat.eq_of_beq_eq_true hc.1.2
            cases hcd : classDef n m true ts'.tail ls'' with
            | none => rw [hcd] at h; cases h
            | some q =>
              obtain ⟨c, l1⟩ := q
              rw [hcd] at h
              obtain ⟨p', hp, rfl⟩ := thenParsed_some h
              obtain ⟨used, rfl, hc'⟩ := classDef_some hcd
              rw [nextIs_eq hk, nextName_eq hc.2]
              exact .dataclass hd hc' (ih _ _ hp)
          · cases h
        · cases h
      replace h := cond_some h
      rcases h with ⟨hk, h⟩ | ⟨_, h⟩
      · cases hcd : classDef n m false ts.tail ls with
        | none => rw [hcd] at h; cases h
        | some q =>
          obtain ⟨c, l1⟩ := q
          rw [hcd] at h
          obtain ⟨p', hp, rfl⟩ := thenParsed_some h
          obtain ⟨used, rfl, hc'⟩ := classDef_some hcd
          rw [nextName_eq hk]
          exact .class_ hc' (ih _ _ hp)
      replace h := cond_some h
      rcases h with ⟨hk, h⟩ | ⟨_, h⟩
      · cases hf : function n .method 0 ts.tail ls with
        | none => rw [hf] at h; cases h
        | some q =>
          obtain ⟨f, l1⟩ := q
          rw [hf] at h
          obtain ⟨p', hp, rfl⟩ := thenParsed_some h
          obtain ⟨used, rfl, hfd, hfk⟩ := function_some hf
          rw [nextName_eq hk]
          exact .function hfd hfk (ih _ _ hp)
      replace h := cond_some h
      rcases h with ⟨hk, h⟩ | ⟨hk, h⟩
      · rw [Bool.and_eq_true, Bool.not_eq_true'] at hk
        cases hcon : constant n ts with
        | none => rw [hcon] at h; cases h
        | some q =>
          obtain ⟨x, e⟩ := q
          rw [hcon] at h
          obtain ⟨p', hp, rfl⟩ := thenParsed_some h
          obtain ⟨u, rfl, ix, he⟩ := constant_some hcon
          exact .constant hk.1 ix he (ih _ _ hp)
      · split at h
        · rename_i body hb
          cases h
          obtain ⟨used, e, hbl, _⟩ := block_sound _ _ _ _ _ hb
          rw [List.append_nil] at e
          subst e
          refine .statements hbl fun hp x u ls' he => ?_
          cases he
          rw [hp] at hk
          cases hk
        · cases h
    · cases h

end Genie.Src.Text
