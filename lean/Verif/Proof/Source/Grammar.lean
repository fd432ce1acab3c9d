import Verif.Spec.PythonGrammar
/-!
# The parser and the grammar (for C71): what the parser returns is derivable
-/

namespace Genie.Src.Text

theorem isKeyword_iff (x : Name) : ∀ ks, isKeyword x ks = true ↔ x ∈ ks
  | [] => by simp [isKeyword]
  | y :: ys => by
    rw [isKeyword, List.mem_cons]
    cases h : Nat.beq x y
    · rw [cond_false, isKeyword_iff x ys]
      exact ⟨Or.inr, fun h' => h'.resolve_left fun e => by rw [e, Nat.beq_refl] at h; cases h⟩
    · exact ⟨fun _ => Or.inl (Nat.eq_of_beq_eq_true h), fun _ => rfl⟩

/-- The keywords of the parser are those of Python. -/
theorem keywords_reserved : (∀ x ∈ keywords, x ∈ reservedWords) ∧ ∀ x ∈ reservedWords, x ∈ keywords := by
  decide

theorem isKeyword_false {x : Name} : isKeyword x keywords = false ↔ Identifier x := by
  rw [Identifier, show x ∈ reservedWords ↔ x ∈ keywords from ⟨keywords_reserved.2 x, keywords_reserved.1 x⟩, ← isKeyword_iff, Bool.not_eq_true]

theorem cond_some {α : Type u} {b : Bool} {x y : Option α} {r : α} (h : cond b x y = some r) : b = true ∧ x = some r ∨ b = false ∧ y = some r := by
  cases b
  · exact Or.inr ⟨rfl, h⟩
  · exact Or.inl ⟨rfl, h⟩

theorem then_some {α : Type u} {r : Res} {k : Ex → List Tok → Option α} {x : α} (h : r.then k = some x) : ∃ e ts, r = some (e, ts) ∧ k e ts = some x := by
  cases r with
  | none => cases h
  | some p => exact ⟨p.1, p.2, rfl, h⟩

theorem is_eq {t : Tok} {c : Nat} (h : t.is c = true) : t = sym c := by
  cases t <;> try cases h
  exact congrArg Tok.op (Nat.eq_of_beq_eq_true h)

theorem isName_eq {t : Tok} {x : Name} (h : t.isName x = true) : t = key x := by
  cases t <;> try cases h
  exact congrArg Tok.name (Nat.eq_of_beq_eq_true h)

theorem nextIs_eq {c : Nat} {ts : List Tok} (h : nextIs c ts = true) : ts = sym c :: ts.tail := by
  cases ts with
  | nil => cases h
  | cons t ts => rw [is_eq h]; rfl

theorem nextName_eq {x : Name} {ts : List Tok} (h : nextName x ts = true) : ts = key x :: ts.tail := by
  cases ts with
  | nil => cases h
  | cons t ts => rw [isName_eq h]; rfl

theorem expect_some {α : Type u} {c : Nat} {ts : List Tok} {k : List Tok → Option α} {x : α} (h : expect c ts k = some x) :
    ∃ ts', ts = sym c :: ts' ∧ k ts' = some x := by
  cases ts with
  | nil => cases h
  | cons t ts =>
    rcases cond_some h with ⟨h1, h2⟩ | ⟨_, h2⟩
    · exact ⟨ts, by rw [is_eq h1], h2⟩
    · cases h2

theorem expectName_some {α : Type u} {c : Name} {ts : List Tok} {k : List Tok → Option α} {x : α} (h : expectName c ts k = some x) :
    ∃ ts', ts = key c :: ts' ∧ k ts' = some x := by
  cases ts with
  | nil => cases h
  | cons t ts =>
    rcases cond_some h with ⟨h1, h2⟩ | ⟨_, h2⟩
    · exact ⟨ts, by rw [isName_eq h1], h2⟩
    · cases h2

theorem identifier_some {α : Type u} {ts : List Tok} {k : Name → List Tok → Option α} {x : α} (h : identifier ts k = some x) :
    ∃ y ts', ts = .name y :: ts' ∧ Identifier y ∧ k y ts' = some x := by
  cases ts with
  | nil => cases h
  | cons t ts =>
    cases t <;> try cases h
    rename_i y
    rcases cond_some h with ⟨_, h2⟩ | ⟨h1, h2⟩
    · cases h2
    · exact ⟨y, ts, rfl, isKeyword_false.1 h1, h2⟩

theorem keywordArg_some {ts : List Tok} (h : keywordArg ts = true) : ∃ x ts', ts = .name x :: sym n!"=" :: ts' ∧ Identifier x := by
  unfold keywordArg at h
  split at h
  · rename_i x c ts'
    rw [Bool.and_eq_true, Bool.not_eq_true'] at h
    exact ⟨x, ts', by rw [Nat.eq_of_beq_eq_true h.1], isKeyword_false.1 h.2⟩
  · cases h

theorem cmpOp_some {ts ts' : List Tok} {op : Cmp} (h : cmpOp ts = some (op, ts')) : ∃ o, ts = o ++ ts' ∧ CompOperator op o := by
  unfold cmpOp at h
  split at h
  · rename_i c us
    rcases cond_some h with ⟨hc, h⟩ | ⟨_, h⟩
    · cases h; cases Nat.eq_of_beq_eq_true hc; exact ⟨_, rfl, .eq⟩
    rcases cond_some h with ⟨hc, h⟩ | ⟨_, h⟩
    · cases h; cases Nat.eq_of_beq_eq_true hc; exact ⟨_, rfl, .ne⟩
    rcases cond_some h with ⟨hc, h⟩ | ⟨_, h⟩
    · cases h; cases Nat.eq_of_beq_eq_true hc; exact ⟨_, rfl, .lt⟩
    rcases cond_some h with ⟨hc, h⟩ | ⟨_, h⟩
    · cases h; cases Nat.eq_of_beq_eq_true hc; exact ⟨_, rfl, .le⟩
    rcases cond_some h with ⟨hc, h⟩ | ⟨_, h⟩
    · cases h; cases Nat.eq_of_beq_eq_true hc; exact ⟨_, rfl, .gt⟩
    rcases cond_some h with ⟨hc, h⟩ | ⟨_, h⟩
    · cases h; cases Nat.eq_of_beq_eq_true hc; exact ⟨_, rfl, .ge⟩
    cases h
  · rename_i x us
    rcases cond_some h with ⟨hc, h⟩ | ⟨_, h⟩
    · cases Nat.eq_of_beq_eq_true hc
      cases us with
      | nil => cases h
      | cons t us =>
        dsimp only at h
        cases ht : t.isName n!"not" <;> rw [ht] at h <;> cases h
        · exact ⟨_, rfl, .is⟩
        · rw [isName_eq ht]; exact ⟨_, rfl, .isNot⟩
    · cases h
  · cases h

/-- What the tokens that the parser took are, for each goal. -/
def Sound : Goal → Ex → List Tok → Prop
  | .expr, e, u => Derives .expression e u
  | .andTest, e, u => Derives .and_test e u
  | .notTest, e, u => Derives .not_test e u
  | .comparison, e, u => Derives .comparison e u
  | .compareTail, e, u => Derives .comparisons e u
  | .sum, e, u => Derives .a_expr e u
  | .sumTail l, e, u => ∀ v, Derives .a_expr l v → Derives .a_expr e (v ++ u)
  | .product, e, u => Derives .m_expr e u
  | .productTail l, e, u => ∀ v, Derives .m_expr l v → Derives .m_expr e (v ++ u)
  | .unary, e, u => Derives .u_expr e u
  | .trailers l, e, u => ∀ v, Derives .primary l v → Derives .primary e (v ++ u)
  | .atom, e, u => Derives .atom e u
  | .args named, e, u => ∃ v, u = v ++ [sym n!")"] ∧ Derives (.arguments named) e v
  | .moreArgs named, e, u => ∃ v, u = v ++ [sym n!")"] ∧ Derives (.otherArguments named) e v
  | .items close, e, u => ∃ v, u = v ++ [sym close] ∧ Derives .elements e v
  | .moreItems close, e, u => ∃ v, u = v ++ [sym close] ∧ Derives .otherElements e v
  | .generator close l, e, u => ∃ v, u = v ++ [sym close] ∧ ∀ w, Derives .expression l w → Derives .comprehension e (w ++ key n!"for" :: v)
  | .callArgs, e, u => ∃ v, u = v ++ [sym n!")"] ∧ (Derives (.arguments false) e v ∨ ∃ g, e = .arg g .argNil ∧ Derives .comprehension g v)
  | .listDisplay, e, u => Derives .atom e (sym n!"[" :: u)

/-- A parser that returns only what is derivable. -/
def IsSound (p : Goal → List Tok → Res) : Prop := ∀ g ts e rest, p g ts = some (e, rest) → ∃ u, ts = u ++ rest ∧ Sound g e u

theorem Derives.to {p : Phrase} {e : Ex} {u v : List Tok} (h : Derives p e u) (hv : v = u) : Derives p e v := hv ▸ h

theorem comparisons_cases {e : Ex} {u : List Tok} (h : Derives .comparisons e u) : e = .cmpNil ∧ u = [] ∨ ∃ op r tail, e = .cmp op r tail := by
  cases h with
  | noComparison => exact Or.inl ⟨rfl, rfl⟩
  | comparisons => exact Or.inr ⟨_, _, _, rfl⟩

/-- Associate everything to the right. -/
macro "flat" : tactic => `(tactic| simp only [List.append_assoc, List.cons_append, List.nil_append, List.append_nil])

section
variable {p : Goal → List Tok → Res} (hp : IsSound p)
include hp

theorem sound_expr : ∀ ts e rest, parseStep p .expr ts = some (e, rest) → ∃ u, ts = u ++ rest ∧ Sound .expr e u := by
  intro ts e rest h
  simp only [parseStep] at h
  replace h := then_some h
  obtain ⟨a, ts1, ha, h⟩ := h
  obtain ⟨u, rfl, hu⟩ := hp _ _ _ _ ha
  replace h := cond_some h
  rcases h with ⟨hi, h⟩ | ⟨_, h⟩
  · replace h := then_some h
    obtain ⟨c, ts2, hc, h⟩ := h
    obtain ⟨v, e1, hv⟩ := hp _ _ _ _ hc
    replace h := expectName_some h
    obtain ⟨ts3, rfl, h⟩ := h
    replace h := then_some h
    obtain ⟨b, ts4, hb, h⟩ := h
    obtain ⟨w, rfl, hw⟩ := hp _ _ _ _ hb
    cases h
    rw [nextName_eq hi, e1]
    exact ⟨_, by flat, Derives.conditional hu hv hw⟩
  · cases h; exact ⟨u, rfl, .test hu⟩

theorem sound_andTest : ∀ ts e rest, parseStep p .andTest ts = some (e, rest) → ∃ u, ts = u ++ rest ∧ Sound .andTest e u := by
  intro ts e rest h
  simp only [parseStep] at h
  replace h := then_some h
  obtain ⟨a, ts1, ha, h⟩ := h
  obtain ⟨u, rfl, hu⟩ := hp _ _ _ _ ha
  replace h := cond_some h
  rcases h with ⟨hi, h⟩ | ⟨_, h⟩
  · replace h := then_some h
    obtain ⟨c, ts2, hc, h⟩ := h
    obtain ⟨v, e1, hv⟩ := hp _ _ _ _ hc
    cases h
    rw [nextName_eq hi, e1]
    exact ⟨_, by flat, Derives.and hu hv⟩
  · cases h; exact ⟨u, rfl, .notTest hu⟩

theorem sound_notTest : ∀ ts e rest, parseStep p .notTest ts = some (e, rest) → ∃ u, ts = u ++ rest ∧ Sound .notTest e u := by
  intro ts e rest h
  simp only [parseStep] at h
  replace h := cond_some h
  rcases h with ⟨hi, h⟩ | ⟨_, h⟩
  · replace h := then_some h
    obtain ⟨a, ts1, ha, h⟩ := h
    obtain ⟨u, e1, hu⟩ := hp _ _ _ _ ha
    cases h
    rw [nextName_eq hi, e1]
    exact ⟨_, by flat, Derives.not hu⟩
  · obtain ⟨u, rfl, hu⟩ := hp _ _ _ _ h
    exact ⟨u, rfl, .comparison hu⟩

theorem sound_comparison : ∀ ts e rest, parseStep p .comparison ts = some (e, rest) → ∃ u, ts = u ++ rest ∧ Sound .comparison e u := by
  intro ts e rest h
  simp only [parseStep] at h
  replace h := then_some h
  obtain ⟨a, ts1, ha, h⟩ := h
  obtain ⟨u, rfl, hu⟩ := hp _ _ _ _ ha
  replace h := then_some h
  obtain ⟨b, ts2, hb, h⟩ := h
  obtain ⟨v, rfl, hv⟩ := hp _ _ _ _ hb
  rcases comparisons_cases hv with ⟨rfl, rfl⟩ | ⟨op, r, tail, rfl⟩
  · cases h; exact ⟨u, by flat, .operand hu⟩
  · cases h; exact ⟨_, by flat, .compare hu hv⟩

theorem sound_compareTail : ∀ ts e rest, parseStep p .compareTail ts = some (e, rest) → ∃ u, ts = u ++ rest ∧ Sound .compareTail e u := by
  intro ts e rest h
  simp only [parseStep] at h
  cases hc : cmpOp ts with
  | none => rw [hc] at h; cases h; exact ⟨[], rfl, .noComparison⟩
  | some q =>
    obtain ⟨op, ts1⟩ := q
    rw [hc] at h
    obtain ⟨o, rfl, ho⟩ := cmpOp_some hc
    replace h := then_some h
    obtain ⟨a, ts2, ha, h⟩ := h
    obtain ⟨u, rfl, hu⟩ := hp _ _ _ _ ha
    replace h := then_some h
    obtain ⟨b, ts3, hb, h⟩ := h
    obtain ⟨v, rfl, hv⟩ := hp _ _ _ _ hb
    cases h
    exact ⟨_, by flat, .comparisons ho hu hv⟩

theorem sound_sum : ∀ ts e rest, parseStep p .sum ts = some (e, rest) → ∃ u, ts = u ++ rest ∧ Sound .sum e u := by
  intro ts e rest h
  simp only [parseStep] at h
  replace h := then_some h
  obtain ⟨a, ts1, ha, h⟩ := h
  obtain ⟨u, rfl, hu⟩ := hp _ _ _ _ ha
  obtain ⟨v, rfl, hv⟩ := hp _ _ _ _ h
  exact ⟨_, by flat, hv u (.term hu)⟩

theorem sound_product : ∀ ts e rest, parseStep p .product ts = some (e, rest) → ∃ u, ts = u ++ rest ∧ Sound .product e u := by
  intro ts e rest h
  simp only [parseStep] at h
  replace h := then_some h
  obtain ⟨a, ts1, ha, h⟩ := h
  obtain ⟨u, rfl, hu⟩ := hp _ _ _ _ ha
  obtain ⟨v, rfl, hv⟩ := hp _ _ _ _ h
  exact ⟨_, by flat, hv u (.factor hu)⟩

theorem sound_sumTail (l : Ex) : ∀ ts e rest, parseStep p (.sumTail l) ts = some (e, rest) → ∃ u, ts = u ++ rest ∧ Sound (.sumTail l) e u := by
  intro ts e rest h
  simp only [parseStep] at h
  replace h := cond_some h
  rcases h with ⟨hi, h⟩ | ⟨_, h⟩
  · replace h := then_some h
    obtain ⟨a, ts1, ha, h⟩ := h
    obtain ⟨u, e1, hu⟩ := hp _ _ _ _ ha
    obtain ⟨v, rfl, hv⟩ := hp _ _ _ _ h
    rw [nextIs_eq hi, e1]
    exact ⟨sym n!"+" :: u ++ v, by flat, fun w hw => (hv _ (.add hw hu)).to (by flat)⟩
  replace h := cond_some h
  rcases h with ⟨hi, h⟩ | ⟨_, h⟩
  · replace h := then_some h
    obtain ⟨a, ts1, ha, h⟩ := h
    obtain ⟨u, e1, hu⟩ := hp _ _ _ _ ha
    obtain ⟨v, rfl, hv⟩ := hp _ _ _ _ h
    rw [nextIs_eq hi, e1]
    exact ⟨sym n!"-" :: u ++ v, by flat, fun w hw => (hv _ (.sub hw hu)).to (by flat)⟩
  · cases h; exact ⟨[], rfl, fun w hw => hw.to (List.append_nil w)⟩

theorem sound_productTail (l : Ex) : ∀ ts e rest, parseStep p (.productTail l) ts = some (e, rest) →
    ∃ u, ts = u ++ rest ∧ Sound (.productTail l) e u := by
  intro ts e rest h
  simp only [parseStep] at h
  replace h := cond_some h
  rcases h with ⟨hi, h⟩ | ⟨_, h⟩
  · replace h := then_some h
    obtain ⟨a, ts1, ha, h⟩ := h
    obtain ⟨u, e1, hu⟩ := hp _ _ _ _ ha
    obtain ⟨v, rfl, hv⟩ := hp _ _ _ _ h
    rw [nextIs_eq hi, e1]
    exact ⟨sym n!"*" :: u ++ v, by flat, fun w hw => (hv _ (.mul hw hu)).to (by flat)⟩
  · cases h; exact ⟨[], rfl, fun w hw => hw.to (List.append_nil w)⟩

theorem sound_unary : ∀ ts e rest, parseStep p .unary ts = some (e, rest) → ∃ u, ts = u ++ rest ∧ Sound .unary e u := by
  intro ts e rest h
  simp only [parseStep] at h
  replace h := cond_some h
  rcases h with ⟨hi, h⟩ | ⟨_, h⟩
  · replace h := then_some h
    obtain ⟨a, ts1, ha, h⟩ := h
    obtain ⟨u, e1, hu⟩ := hp _ _ _ _ ha
    cases h
    rw [nextIs_eq hi, e1]
    exact ⟨_, by flat, Derives.neg hu⟩
  · replace h := then_some h
    obtain ⟨a, ts1, ha, h⟩ := h
    obtain ⟨u, rfl, hu⟩ := hp _ _ _ _ ha
    obtain ⟨v, rfl, hv⟩ := hp _ _ _ _ h
    exact ⟨_, by flat, .primary (hv u (.atom hu))⟩

theorem sound_trailers (l : Ex) : ∀ ts e rest, parseStep p (.trailers l) ts = some (e, rest) → ∃ u, ts = u ++ rest ∧ Sound (.trailers l) e u := by
  intro ts e rest h
  simp only [parseStep] at h
  replace h := cond_some h
  rcases h with ⟨hi, h⟩ | ⟨_, h⟩
  · replace h := identifier_some h
    obtain ⟨a, ts1, e1, ia, h⟩ := h
    obtain ⟨v, rfl, hv⟩ := hp _ _ _ _ h
    rw [nextIs_eq hi, e1]
    exact ⟨sym n!"." :: .name a :: v, by flat, fun w hw => (hv _ (.attr hw ia)).to (by flat)⟩
  replace h := cond_some h
  rcases h with ⟨hi, h⟩ | ⟨_, h⟩
  · replace h := then_some h
    obtain ⟨as, ts1, ha, h⟩ := h
    obtain ⟨_, e1, u, rfl, hu⟩ := hp _ _ _ _ ha
    obtain ⟨v, rfl, hv⟩ := hp _ _ _ _ h
    rw [nextIs_eq hi, e1]
    refine ⟨sym n!"(" :: u ++ sym n!")" :: v, by flat, fun w hw => ?_⟩
    rcases hu with hu | ⟨g, rfl, hu⟩
    · exact (hv _ (.call hw hu)).to (by flat)
    · exact (hv _ (.callGenerator hw hu)).to (by flat)
  replace h := cond_some h
  rcases h with ⟨hi, h⟩ | ⟨_, h⟩
  · replace h := then_some h
    obtain ⟨i, ts1, ha, h⟩ := h
    obtain ⟨u, e1, hu⟩ := hp _ _ _ _ ha
    rw [nextIs_eq hi, e1]
    replace h := cond_some h
    rcases h with ⟨hj, h⟩ | ⟨_, h⟩
    · replace h := then_some h
      obtain ⟨j, ts2, hb, h⟩ := h
      obtain ⟨v, e2, hv⟩ := hp _ _ _ _ hb
      replace h := expect_some h
      obtain ⟨ts3, rfl, h⟩ := h
      obtain ⟨x, rfl, hx⟩ := hp _ _ _ _ h
      rw [nextIs_eq hj, e2]
      exact ⟨sym n!"[" :: u ++ sym n!":" :: v ++ sym n!"]" :: x, by flat, fun w hw => (hx _ (.slice hw hu hv)).to (by flat)⟩
    · replace h := expect_some h
      obtain ⟨ts3, rfl, h⟩ := h
      obtain ⟨x, rfl, hx⟩ := hp _ _ _ _ h
      exact ⟨sym n!"[" :: u ++ sym n!"]" :: x, by flat, fun w hw => (hx _ (.index hw hu)).to (by flat)⟩
  · cases h; exact ⟨[], rfl, fun w hw => hw.to (List.append_nil w)⟩

theorem sound_atom : ∀ ts e rest, parseStep p .atom ts = some (e, rest) → ∃ u, ts = u ++ rest ∧ Sound .atom e u := by
  intro ts e rest h
  cases ts with
  | nil => cases h
  | cons t ts =>
    cases t with
    | name x =>
      replace h := cond_some h
      rcases h with ⟨hx, h⟩ | ⟨_, h⟩
      · cases h; cases Nat.eq_of_beq_eq_true hx; exact ⟨_, rfl, .none⟩
      replace h := cond_some h
      rcases h with ⟨hx, h⟩ | ⟨_, h⟩
      · cases h; cases Nat.eq_of_beq_eq_true hx; exact ⟨_, rfl, .true⟩
      replace h := cond_some h
      rcases h with ⟨hx, h⟩ | ⟨_, h⟩
      · cases h; cases Nat.eq_of_beq_eq_true hx; exact ⟨_, rfl, .false⟩
      replace h := cond_some h
      rcases h with ⟨_, h⟩ | ⟨hx, h⟩
      · cases h
      · cases h; exact ⟨[.name x], rfl, .name (isKeyword_false.1 hx)⟩
    | int i => cases h; exact ⟨[.int i], rfl, .int⟩
    | float b => cases h; exact ⟨[.float b], rfl, .float⟩
    | str cs => cases h; exact ⟨[.str cs], rfl, .str⟩
    | bytes b => cases h; exact ⟨[.bytes b], rfl, .bytes⟩
    | bad => cases h
    | op c =>
      replace h := cond_some h
      rcases h with ⟨hc, h⟩ | ⟨_, h⟩
      · cases Nat.eq_of_beq_eq_true hc
        replace h := then_some h
        obtain ⟨a, ts1, ha, h⟩ := h
        obtain ⟨u, rfl, hu⟩ := hp _ _ _ _ ha
        replace h := cond_some h
        rcases h with ⟨hi, h⟩ | ⟨_, h⟩
        · cases h
          refine ⟨_, ?_, Derives.parenthesized hu⟩
          flat
          rw [← nextIs_eq hi]
        replace h := cond_some h
        rcases h with ⟨hi, h⟩ | ⟨_, h⟩
        · replace h := then_some h
          obtain ⟨es, ts2, hb, h⟩ := h
          obtain ⟨_, e1, v, rfl, hv⟩ := hp _ _ _ _ hb
          cases h
          rw [nextIs_eq hi, e1]
          exact ⟨_, by flat, Derives.tuple hu hv⟩
        · cases h
      replace h := cond_some h
      rcases h with ⟨hc, h⟩ | ⟨_, h⟩
      · cases Nat.eq_of_beq_eq_true hc
        obtain ⟨u, rfl, hu⟩ := hp _ _ _ _ h
        exact ⟨_, by flat, hu⟩
      · cases h

theorem sound_moreArgs (m : Bool) : ∀ ts e rest, parseStep p (.moreArgs m) ts = some (e, rest) → ∃ u, ts = u ++ rest ∧ Sound (.moreArgs m) e u := by
  intro ts e rest h
  simp only [parseStep] at h
  replace h := cond_some h
  rcases h with ⟨hi, h⟩ | ⟨_, h⟩
  · obtain ⟨_, e1, v, rfl, hv⟩ := hp _ _ _ _ h
    rw [nextIs_eq hi, e1]
    exact ⟨_, by flat, sym n!"," :: v, rfl, .otherArguments hv⟩
  · replace h := expect_some h
    obtain ⟨ts', rfl, h⟩ := h
    cases h
    exact ⟨[sym n!")"], rfl, [], rfl, .noOtherArguments⟩

theorem sound_moreItems (c : Nat) : ∀ ts e rest, parseStep p (.moreItems c) ts = some (e, rest) → ∃ u, ts = u ++ rest ∧ Sound (.moreItems c) e u := by
  intro ts e rest h
  simp only [parseStep] at h
  replace h := cond_some h
  rcases h with ⟨hi, h⟩ | ⟨_, h⟩
  · obtain ⟨_, e1, v, rfl, hv⟩ := hp _ _ _ _ h
    rw [nextIs_eq hi, e1]
    exact ⟨_, by flat, sym n!"," :: v, rfl, .otherElements hv⟩
  · replace h := expect_some h
    obtain ⟨ts', rfl, h⟩ := h
    cases h
    exact ⟨[sym c], rfl, [], rfl, .noOtherElements⟩

theorem sound_items (c : Nat) : ∀ ts e rest, parseStep p (.items c) ts = some (e, rest) → ∃ u, ts = u ++ rest ∧ Sound (.items c) e u := by
  intro ts e rest h
  simp only [parseStep] at h
  replace h := cond_some h
  rcases h with ⟨hi, h⟩ | ⟨_, h⟩
  · cases h
    exact ⟨[sym c], nextIs_eq hi, [], rfl, .noElements⟩
  replace h := cond_some h
  rcases h with ⟨hi, h⟩ | ⟨_, h⟩
  · replace h := then_some h
    obtain ⟨a, ts1, ha, h⟩ := h
    obtain ⟨u, e1, hu⟩ := hp _ _ _ _ ha
    replace h := then_some h
    obtain ⟨b, ts2, hb, h⟩ := h
    obtain ⟨_, rfl, v, rfl, hv⟩ := hp _ _ _ _ hb
    cases h
    rw [nextIs_eq hi, e1]
    exact ⟨sym n!"*" :: u ++ v ++ [sym c], by flat, _, rfl, .starredElement hu hv⟩
  · replace h := then_some h
    obtain ⟨a, ts1, ha, h⟩ := h
    obtain ⟨u, rfl, hu⟩ := hp _ _ _ _ ha
    replace h := then_some h
    obtain ⟨b, ts2, hb, h⟩ := h
    obtain ⟨_, rfl, v, rfl, hv⟩ := hp _ _ _ _ hb
    cases h
    exact ⟨u ++ v ++ [sym c], by flat, _, rfl, .element hu hv⟩

theorem sound_args (m : Bool) : ∀ ts e rest, parseStep p (.args m) ts = some (e, rest) → ∃ u, ts = u ++ rest ∧ Sound (.args m) e u := by
  intro ts e rest h
  simp only [parseStep] at h
  replace h := cond_some h
  rcases h with ⟨hi, h⟩ | ⟨_, h⟩
  · cases h
    exact ⟨[sym n!")"], nextIs_eq hi, [], rfl, .noArguments⟩
  replace h := cond_some h
  rcases h with ⟨hi, h⟩ | ⟨_, h⟩
  · replace h := then_some h
    obtain ⟨a, ts1, ha, h⟩ := h
    obtain ⟨u, e1, hu⟩ := hp _ _ _ _ ha
    replace h := then_some h
    obtain ⟨b, ts2, hb, h⟩ := h
    obtain ⟨_, rfl, v, rfl, hv⟩ := hp _ _ _ _ hb
    cases h
    rw [nextIs_eq hi, e1]
    exact ⟨sym n!"*" :: u ++ v ++ [sym n!")"], by flat, _, rfl, .starred hu hv⟩
  replace h := cond_some h
  rcases h with ⟨hi, h⟩ | ⟨_, h⟩
  · obtain ⟨x, ts0, rfl, ix⟩ := keywordArg_some hi
    replace h := identifier_some h
    obtain ⟨x', ts', e0, _, h⟩ := h
    cases e0
    replace h := then_some h
    obtain ⟨a, ts1, ha, h⟩ := h
    obtain ⟨u, e1, hu⟩ := hp _ _ _ _ ha
    replace h := then_some h
    obtain ⟨b, ts2, hb, h⟩ := h
    obtain ⟨_, rfl, v, rfl, hv⟩ := hp _ _ _ _ hb
    cases h
    rw [List.tail_cons] at e1
    rw [e1]
    exact ⟨.name x :: sym n!"=" :: u ++ v ++ [sym n!")"], by flat, _, rfl, .keyword ix hu hv⟩
  replace h := cond_some h
  rcases h with ⟨_, h⟩ | ⟨rfl, h⟩
  · cases h
  · replace h := then_some h
    obtain ⟨a, ts1, ha, h⟩ := h
    obtain ⟨u, rfl, hu⟩ := hp _ _ _ _ ha
    replace h := then_some h
    obtain ⟨b, ts2, hb, h⟩ := h
    obtain ⟨_, rfl, v, rfl, hv⟩ := hp _ _ _ _ hb
    cases h
    exact ⟨u ++ v ++ [sym n!")"], by flat, _, rfl, .positional hu hv⟩

theorem sound_generator (c : Nat) (l : Ex) : ∀ ts e rest, parseStep p (.generator c l) ts = some (e, rest) →
    ∃ u, ts = u ++ rest ∧ Sound (.generator c l) e u := by
  intro ts e rest h
  simp only [parseStep] at h
  replace h := identifier_some h
  obtain ⟨x, ts0, rfl, ix, h⟩ := h
  replace h := expectName_some h
  obtain ⟨ts1, rfl, h⟩ := h
  replace h := then_some h
  obtain ⟨a, ts2, ha, h⟩ := h
  obtain ⟨u, rfl, hu⟩ := hp _ _ _ _ ha
  replace h := cond_some h
  rcases h with ⟨hi, h⟩ | ⟨_, h⟩
  · replace h := then_some h
    obtain ⟨b, ts3, hb, h⟩ := h
    obtain ⟨v, e1, hv⟩ := hp _ _ _ _ hb
    replace h := expect_some h
    obtain ⟨ts4, rfl, h⟩ := h
    cases h
    rw [nextName_eq hi, e1]
    exact ⟨.name x :: key n!"in" :: u ++ key n!"if" :: v ++ [sym c], by flat, _, rfl, fun w hw => (Derives.compIf hw ix hu hv).to (by flat)⟩
  · replace h := expect_some h
    obtain ⟨ts4, rfl, h⟩ := h
    cases h
    exact ⟨.name x :: key n!"in" :: u ++ [sym c], by flat, _, rfl, fun w hw => (Derives.comp hw ix hu).to (by flat)⟩

theorem sound_callArgs : ∀ ts e rest, parseStep p .callArgs ts = some (e, rest) → ∃ u, ts = u ++ rest ∧ Sound .callArgs e u := by
  intro ts e rest h
  simp only [parseStep] at h
  replace h := cond_some h
  rcases h with ⟨_, h⟩ | ⟨_, h⟩
  · obtain ⟨_, rfl, v, rfl, hv⟩ := hp _ _ _ _ h
    exact ⟨_, rfl, v, rfl, Or.inl hv⟩
  replace h := then_some h
  obtain ⟨a, ts1, ha, h⟩ := h
  obtain ⟨u, rfl, hu⟩ := hp _ _ _ _ ha
  replace h := cond_some h
  rcases h with ⟨hi, h⟩ | ⟨_, h⟩
  · replace h := then_some h
    obtain ⟨b, ts2, hb, h⟩ := h
    obtain ⟨_, e1, v, rfl, hv⟩ := hp _ _ _ _ hb
    cases h
    rw [nextName_eq hi, e1]
    exact ⟨u ++ key n!"for" :: v ++ [sym n!")"], by flat, _, rfl, Or.inr ⟨_, rfl, hv u hu⟩⟩
  · replace h := then_some h
    obtain ⟨b, ts2, hb, h⟩ := h
    obtain ⟨_, rfl, v, rfl, hv⟩ := hp _ _ _ _ hb
    cases h
    exact ⟨u ++ v ++ [sym n!")"], by flat, _, rfl, Or.inl (.positional hu hv)⟩

theorem sound_listDisplay : ∀ ts e rest, parseStep p .listDisplay ts = some (e, rest) → ∃ u, ts = u ++ rest ∧ Sound .listDisplay e u := by
  intro ts e rest h
  simp only [parseStep] at h
  replace h := cond_some h
  rcases h with ⟨_, h⟩ | ⟨_, h⟩
  · replace h := then_some h
    obtain ⟨b, ts2, hb, h⟩ := h
    obtain ⟨_, rfl, v, rfl, hv⟩ := hp _ _ _ _ hb
    cases h
    exact ⟨_, rfl, .list hv⟩
  replace h := then_some h
  obtain ⟨a, ts1, ha, h⟩ := h
  obtain ⟨u, rfl, hu⟩ := hp _ _ _ _ ha
  replace h := cond_some h
  rcases h with ⟨hi, h⟩ | ⟨_, h⟩
  · obtain ⟨_, e1, v, rfl, hv⟩ := hp _ _ _ _ h
    rw [nextName_eq hi, e1]
    exact ⟨u ++ key n!"for" :: v ++ [sym n!"]"], by flat, .listComprehension (hv u hu)⟩
  · replace h := then_some h
    obtain ⟨b, ts2, hb, h⟩ := h
    obtain ⟨_, rfl, v, rfl, hv⟩ := hp _ _ _ _ hb
    cases h
    exact ⟨u ++ v ++ [sym n!"]"], by flat, .list (.element hu hv)⟩

theorem parseStep_sound : IsSound (parseStep p) := by
  intro g
  cases g with
  | expr => exact sound_expr hp
  | andTest => exact sound_andTest hp
  | notTest => exact sound_notTest hp
  | comparison => exact sound_comparison hp
  | compareTail => exact sound_compareTail hp
  | sum => exact sound_sum hp
  | sumTail l => exact sound_sumTail hp l
  | product => exact sound_product hp
  | productTail l => exact sound_productTail hp l
  | unary => exact sound_unary hp
  | trailers e => exact sound_trailers hp e
  | atom => exact sound_atom hp
  | args m => exact sound_args hp m
  | moreArgs m => exact sound_moreArgs hp m
  | items c => exact sound_items hp c
  | moreItems c => exact sound_moreItems hp c
  | generator c e => exact sound_generator hp c e
  | callArgs => exact sound_callArgs hp
  | listDisplay => exact sound_listDisplay hp

end

theorem parse_sound : ∀ n, IsSound (parse n)
  | 0, _, _, _, _, h => by cases h
  | n + 1, g, ts, e, rest, h => parseStep_sound (parse_sound n) g ts e rest h

end Genie.Src.Text
