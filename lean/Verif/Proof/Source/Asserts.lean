import Verif.Proof.Source.Upto
/-!
# Assertions that change nothing

The conditions of the four `assert` statements of the package are evaluated without effect; so a block with its assertions and the block without
them agree, unless an assertion raises.
-/

namespace Genie.Src

variable {S : PyErr → Prop}

/-- What evaluating the condition of an `assert` statement that raises, or a condition that is false, raises. -/
def AssertErr (e : PyErr) : Prop := e = .assertionError ∨ e = .typeError ∨ e = .attributeError

/-- Expressions whose evaluation changes nothing: variables, numbers, attributes that are no properties, `len(e)`, and `==` between them. -/
def quiet : Ex → Bool
  | .name _ => true
  | .int _ => true
  | .attr e a => quiet e && noProperty a classes
  | .call (.name x) (.arg e .argNil) => Nat.beq x n!"len" && quiet e
  | .compare l tail => quiet l && quiet tail
  | .cmpNil => true
  | .cmp op r tail => decide (op = .eq) && quiet r && quiet tail
  | _ => false

/-- A block whose assertions are quiet and that does not give a new meaning to `len`. -/
def St.tame : St → Bool
  | .done => true
  | .assign x _ rest => !Nat.beq n!"len" x && rest.tame
  | .aug x _ _ rest => !Nat.beq n!"len" x && rest.tame
  | .unpack xs _ rest => xs.all (fun x => !Nat.beq n!"len" x) && rest.tame
  | .setAttr _ _ _ rest => rest.tame
  | .expr _ rest => rest.tame
  | .assert c rest => quiet c && rest.tame
  | .ite _ a b rest => a.tame && b.tame && rest.tame
  | .forIn x _ body rest => !Nat.beq n!"len" x && body.tame && rest.tame
  | .ret _ => true
  | .raise _ => true

/-- `f k` is `k v` for some `v`, or raises. -/
def Pass (f : M β) (k : PVal → M β) : Prop := ∀ H s, (∃ v, f H s = k v H s) ∨ ∃ e, AssertErr e ∧ f H s = .error e

theorem Pass.trans {f : M β} {g : PVal → M β} {k : PVal → M β} (hf : Pass f g) (hg : ∀ v, Pass (g v) k) : Pass f k := by
  intro H s
  rcases hf H s with ⟨v, h⟩ | h
  · rw [h]; exact hg v H s
  · exact .inr h

theorem Pass.typeError {f : M β} {k : PVal → M β} (h : f = Src.fail .typeError) : Pass f k :=
  fun _ _ => .inr ⟨.typeError, .inr (.inl rfl), by rw [h]; rfl⟩

theorem Pass.value {v : PVal} {k : PVal → M β} : Pass (k v) k := fun _ _ => .inl ⟨v, rfl⟩

theorem Pass.andThen {f : M PVal} {k : PVal → M β} (hf : Pass f Src.done) : Pass (Src.andThen f k) k := by
  intro H s
  unfold Src.andThen
  rcases hf H s with ⟨v, h⟩ | ⟨e, he, h⟩
  · rw [h]; exact .inl ⟨v, rfl⟩
  · rw [h]; exact .inr ⟨e, he, rfl⟩

theorem Pass.nameK {m x : Name} {k : PVal → M β} : ∀ ρ, Pass (Src.nameK m x ρ k) k
  | [] => by
    unfold Src.nameK
    split
    · exact .value
    · exact .typeError rfl
  | (y, v) :: ρ => by
    unfold Src.nameK
    split
    · exact .value
    · exact Pass.nameK ρ

theorem len_glob (m : Name) : glob m n!"len" = none := by
  unfold glob
  have h : modules.all (fun d => (find n!"len" d.globals).isNone) = true := by decide +kernel
  have key : ∀ {ms : List Module} {d : Module}, findModule m ms = some d → d ∈ ms := by
    intro ms
    induction ms with
    | nil => intro d h; cases h
    | cons a ms ih =>
      intro d h
      unfold findModule at h
      split at h
      · cases h; exact List.mem_cons_self ..
      · exact List.mem_cons_of_mem _ (ih h)
  split
  · rfl
  · rename_i d hd
    have := List.all_eq_true.mp h d (key hd)
    simpa using this

theorem len_name {m : Name} {k : PVal → M β} : ∀ ρ, Unbound n!"len" ρ → Src.nameK m n!"len" ρ k = k (.lib n!"len")
  | [], _ => by
    unfold Src.nameK
    have : globVal m n!"len" = some (.lib n!"len") := by
      unfold globVal
      rw [len_glob]
      rfl
    rw [this]
  | (y, v) :: ρ, h => by
    have hz : Nat.beq n!"len" y = false ∧ Unbound n!"len" ρ := by
      unfold Unbound find at h
      cases hb : Nat.beq n!"len" y with
      | true => rw [hb] at h; cases h
      | false => rw [hb] at h; exact ⟨rfl, h⟩
    unfold Src.nameK
    rw [hz.1]
    exact len_name ρ hz.2

theorem attr_error {H : Heap} {v : HVal} {n : PyStr} {e : PyErr} (h : W.attr H v n = .error e) : AssertErr e := by
  unfold W.attr at h
  split at h
  · split at h
    · cases h
    · cases h; exact .inr (.inr rfl)
  · cases h; exact .inr (.inr rfl)

theorem len_error {H : Heap} {v : HVal} {e : PyErr} (h : W.len H (.ok v) = .error e) : e = .typeError := by
  unfold W.len at h
  cases v with
  | str s => cases h
  | ref a =>
    change (match W.cell H (.ref a) with
      | some (.list items) | some (.tuple items) => Except.ok items.length
      | _ => .error .typeError) = (Except.error e : Py Nat) at h
    split at h <;> cases h
    rfl
  | _ => cases h; rfl

theorem Pass.attrM {call : Call} {v : PVal} {a : Name} (ha : noProperty a classes = true) : Pass (Src.attrM call v a) Src.done := by
  have err : ∀ {β : Type} {k : PVal → M β}, Pass (Src.fail .attributeError) k := fun _ _ => .inr ⟨.attributeError, .inr (.inr rfl), rfl⟩
  cases v with
  | handler =>
    intro H s
    change (∃ v, Src.handlerAttr a H s = _) ∨ ∃ e, _ ∧ Src.handlerAttr a H s = _
    unfold Src.handlerAttr
    split
    · exact .inl ⟨_, rfl⟩
    · exact .inl ⟨_, rfl⟩
    · exact .inl ⟨_, rfl⟩
    · exact .inr ⟨_, .inr (.inr rfl), rfl⟩
  | cls c =>
    unfold Src.attrM
    dsimp only
    split
    · exact .value
    · exact err
  | version v =>
    unfold Src.attrM
    dsimp only
    split
    · exact .value
    · exact err
  | h v =>
    intro H s
    change (∃ v', Src.objAttr call v a H s = _) ∨ ∃ e, _ ∧ Src.objAttr call v a H s = _
    unfold Src.objAttr
    rw [noProperty_of ha]
    dsimp only
    cases hx : W.attr H v (Name.str a) with
    | ok w => exact .inl ⟨.h w, rfl⟩
    | error e => exact .inr ⟨e, attr_error hx, rfl⟩
  | _ => exact err

theorem Pass.len {v : PVal} : Pass (Src.libCall n!"len" ⟨[v], []⟩) Src.done := by
  have e : Src.libCall n!"len" ⟨[v], []⟩ = match v with
      | .bytes b => Src.done (.h (.int b.length))
      | .h o => Src.andThen (Src.heapM fun H => W.len H (.ok o)) fun n => Src.done (.h (.int n))
      | _ => Src.fail .typeError := rfl
  rw [e]
  cases v with
  | bytes b => exact Pass.value (v := .h (.int b.length)) (k := Src.done)
  | h o =>
    intro H s
    have : Src.andThen (Src.heapM fun H => W.len H (.ok o)) (fun n => Src.done (PVal.h (.int n))) H s = match W.len H (.ok o) with
        | .ok n => .ok (.h (.int n), H, s)
        | .error e => .error e := by
      unfold Src.andThen Src.heapM
      dsimp only
      cases W.len H (.ok o) <;> rfl
    dsimp only
    rw [this]
    cases hx : W.len H (.ok o) with
    | ok n => exact .inl ⟨_, rfl⟩
    | error e => exact .inr ⟨e, .inr (.inl (len_error hx)), rfl⟩
  | _ => exact .typeError rfl

theorem Pass.eq {call : Call} {l r : PVal} : Pass (Src.cmpM call .eq l r) Src.done := by
  unfold Src.cmpM
  cases r with
  | h r =>
    cases r with
    | int n =>
      cases l with
      | h v =>
        dsimp only
        intro H s
        cases v <;> exact .inl ⟨.bool _, rfl⟩
      | _ => exact .typeError rfl
    | str t =>
      cases l with
      | h v => cases v <;> exact .typeError rfl
      | _ => exact .typeError rfl
    | none => cases l <;> exact .typeError rfl
    | _ => exact .typeError rfl
  | version w => cases l <;> exact .typeError rfl
  | _ => exact .typeError rfl

theorem Pass.truth (v : PVal) (H : Heap) (s : ByteHandler) : (∃ b, Src.truth v H s = .ok (b, H, s)) ∨ Src.truth v H s = .error .typeError := by
  unfold Src.truth
  cases v with
  | h v => cases v <;> exact .inl ⟨_, rfl⟩
  | bool b => exact .inl ⟨_, rfl⟩
  | bytes b => exact .inl ⟨_, rfl⟩
  | _ => exact .inr rfl

/-- What is shown about quiet expressions, by induction. -/
structure PassEx (call : Call) (m : Name) (e : Ex) : Prop where
  ev : quiet e = true → ∀ {β : Type} (ρ : Env) (k : PVal → M β), Unbound n!"len" ρ → Pass (Src.eval call m e ρ k) k
  cmp : quiet e = true → ∀ {β : Type} (v : PVal) (ρ : Env) (k : PVal → M β), Unbound n!"len" ρ → Pass (Src.evalCmp call m v e ρ k) k
  arg : ∀ e', e = .arg e' .argNil → quiet e' = true → ∀ {β : Type} (ρ : Env) (k : PVal → M β), Unbound n!"len" ρ → Pass (Src.eval call m e' ρ k) k

theorem PassEx.all (call : Call) (m : Name) (e : Ex) : PassEx call m e := by
  induction e with
  | name x => exact ⟨fun _ _ ρ k _ => Pass.nameK ρ, fun _ _ _ _ _ _ => .typeError rfl, nofun⟩
  | int i => exact ⟨fun _ _ ρ k _ => .value (v := .h (.int i)), fun _ _ _ _ _ _ => .typeError rfl, nofun⟩
  | attr e a ih =>
    refine ⟨fun hq _ ρ k hρ => ?_, fun _ _ _ _ _ _ => .typeError rfl, nofun⟩
    unfold quiet at hq
    rw [Bool.and_eq_true] at hq
    exact (ih.ev hq.1 ρ _ hρ).trans fun v => .andThen (Pass.attrM hq.2)
  | call f as ihf iha =>
    refine ⟨fun hq _ ρ k hρ => ?_, fun _ _ _ _ _ _ => .typeError rfl, nofun⟩
    cases f with
    | name x =>
      cases as with
      | arg e r =>
        cases r with
        | argNil =>
          have hq' : (Nat.beq x n!"len" && quiet e) = true := hq
          rw [Bool.and_eq_true] at hq'
          obtain rfl := Nat.eq_of_beq_eq_true hq'.1
          change Pass (Src.nameK m n!"len" ρ fun v => Src.eval call m e ρ fun w => Src.andThen (Src.apply v ⟨[w], []⟩) k) k
          rw [len_name ρ hρ]
          exact (iha.arg e rfl hq'.2 ρ _ hρ).trans fun w => .andThen Pass.len
        | _ => cases hq
      | _ => cases hq
    | _ => cases hq
  | compare l t ihl iht =>
    refine ⟨fun hq _ ρ k hρ => ?_, fun _ _ _ _ _ _ => .typeError rfl, nofun⟩
    unfold quiet at hq
    rw [Bool.and_eq_true] at hq
    exact (ihl.ev hq.1 ρ _ hρ).trans fun v => iht.cmp hq.2 v ρ _ hρ
  | cmpNil => exact ⟨fun _ _ _ _ _ => .typeError rfl, fun _ _ _ _ _ _ => .typeError rfl, nofun⟩
  | cmp op r t ihr iht =>
    refine ⟨fun _ _ _ _ _ => .typeError rfl, fun hq _ v ρ k hρ => ?_, nofun⟩
    unfold quiet at hq
    rw [Bool.and_eq_true, Bool.and_eq_true, decide_eq_true_eq] at hq
    obtain ⟨⟨rfl, hr⟩, ht⟩ := hq
    have more : ∀ w b, Pass (Src.andThen (Src.truth b) fun t' => Src.andThen (Src.branch t' (Src.evalCmp call m w t ρ Src.done) (Src.done b)) k) k := by
      intro w b H s
      unfold Src.andThen
      rcases Pass.truth b H s with ⟨t', h⟩ | h
      · rw [h]
        cases t' with
        | true =>
          dsimp only [Src.branch]
          rcases iht.cmp ht w ρ Src.done hρ H s with ⟨v, h'⟩ | ⟨e, he, h'⟩
          · rw [h']; exact .inl ⟨v, rfl⟩
          · rw [h']; exact .inr ⟨e, he, rfl⟩
        | false => exact .inl ⟨b, rfl⟩
      · rw [h]; exact .inr ⟨_, .inr (.inl rfl), rfl⟩
    cases t with
    | cmpNil => exact (ihr.ev hr ρ _ hρ).trans fun w => .andThen Pass.eq
    | _ => exact (ihr.ev hr ρ _ hρ).trans fun w => (Pass.andThen Pass.eq).trans fun b => more w b
  | arg e r ihe ihr => exact ⟨nofun, nofun, fun e' h hq _ ρ k hρ => by cases h; exact ihe.ev hq ρ k hρ⟩
  | _ => exact ⟨nofun, nofun, nofun⟩

theorem UptoQ.assert {Q : β → Prop} {call : Call} {m : Name} {c : Ex} (hq : quiet c = true) {ρ : Env} (hρ : Unbound n!"len" ρ) (hS : ∀ e, AssertErr e → S e)
    {f g : M β} (h : UptoQ S Q f g) :
    UptoQ S Q (Src.eval call m c ρ fun v => Src.andThen (Src.truth v) fun t => Src.branch t f (Src.fail .assertionError)) g := by
  intro H s
  rcases (PassEx.all call m c).ev hq ρ (fun v => Src.andThen (Src.truth v) fun t => Src.branch t f (Src.fail .assertionError)) hρ H s with ⟨v, hv⟩ | ⟨e, he, hv⟩
  · rw [hv]
    dsimp only [Src.andThen]
    rcases Pass.truth v H s with ⟨t, ht⟩ | ht
    · rw [ht]
      cases t with
      | true => exact h H s
      | false => exact .inr ⟨_, hS _ (.inl rfl), rfl⟩
    · rw [ht]; exact .inr ⟨_, hS _ (.inr (.inl rfl)), rfl⟩
  · exact .inr ⟨e, hS e he, hv⟩

/-! ## blocks and functions -/

/-- The block goes on with variables among which is no `len`. -/
def Flow.tame : Flow → Prop
  | .next ρ => Unbound n!"len" ρ
  | .ret _ => True

theorem UptoQ.after {fl : Flow} (hf : fl.tame) {k l : Env → M Flow} (hk : ∀ ρ, Unbound n!"len" ρ → UptoQ S Flow.tame (k ρ) (l ρ)) :
    UptoQ S Flow.tame (Src.after fl k) (Src.after fl l) := by
  cases fl
  · exact hk _ hf
  · exact UptoQ.done trivial

theorem UptoQ.forRange {body body' : Env → M Flow} (hb : ∀ ρ, Unbound n!"len" ρ → UptoQ S Flow.tame (body ρ) (body' ρ)) (x : Name)
    (hx : Nat.beq n!"len" x = false) : ∀ n i ρ, Unbound n!"len" ρ → UptoQ S Flow.tame (Src.forRange body x n i ρ) (Src.forRange body' x n i ρ)
  | 0, _, _, hρ => UptoQ.done hρ
  | n + 1, i, ρ, hρ => UptoQ.setK hx ρ hρ fun ρ' hρ' => .thenQ (hb ρ' hρ') fun _ hfl => UptoQ.after hfl fun ρ h => UptoQ.forRange hb x hx n (i + 1) ρ h

section
variable {call call' : Call} (hc : ∀ r c f as, Upto S (call r c f as) (call' r c f as)) (o : Bool) (ho : o = true → ∀ e, AssertErr e → S e)
include hc ho

theorem UptoQ.exec (m : Name) : ∀ (st : St) (_ : st.tame = true) (ρ : Env), Unbound n!"len" ρ →
    UptoQ S Flow.tame (Src.exec call m st ρ) (Src.exec call' m (st.opt o) ρ)
  | .done, _, _, hρ => UptoQ.done hρ
  | .assign x e rest, ht, ρ, hρ => by
    have ht' : (!Nat.beq n!"len" x && rest.tame) = true := ht
    rw [Bool.and_eq_true, Bool.not_eq_true'] at ht'
    exact UptoQ.eval hc m e ρ _ _ fun v => UptoQ.setK ht'.1 ρ hρ fun ρ' h' => UptoQ.exec m rest ht'.2 ρ' h'
  | .aug x op e rest, ht, ρ, hρ => by
    have ht' : (!Nat.beq n!"len" x && rest.tame) = true := ht
    rw [Bool.and_eq_true, Bool.not_eq_true'] at ht'
    exact UptoQ.nameK (fun v => UptoQ.eval hc m e ρ _ _ fun w => .andThen (.same (Src.binV op v w)) fun u =>
      UptoQ.setK ht'.1 ρ hρ fun ρ' h' => UptoQ.exec m rest ht'.2 ρ' h') ρ
  | .unpack xs e rest, ht, ρ, hρ => by
    have ht' : (xs.all (fun x => !Nat.beq n!"len" x) && rest.tame) = true := ht
    rw [Bool.and_eq_true] at ht'
    exact UptoQ.eval hc m e ρ _ _ fun v => .andThen (.same (Src.iterM v)) fun vs => UptoQ.unpackK xs ht'.1 vs ρ hρ fun ρ' h' => UptoQ.exec m rest ht'.2 ρ' h'
  | .setAttr t a e rest, ht, ρ, hρ =>
    UptoQ.eval hc m e ρ _ _ fun v => UptoQ.eval hc m t ρ _ _ fun w => .andThen (.same (Src.setAttrM w a v)) fun _ => UptoQ.exec m rest ht ρ hρ
  | .expr e rest, ht, ρ, hρ => UptoQ.eval hc m e ρ _ _ fun _ => UptoQ.exec m rest ht ρ hρ
  | .assert c rest, ht, ρ, hρ => by
    have ht' : (quiet c && rest.tame) = true := ht
    rw [Bool.and_eq_true] at ht'
    have hr := UptoQ.exec m rest ht'.2 ρ hρ
    cases o with
    | true => exact UptoQ.assert ht'.1 hρ (ho rfl) hr
    | false => exact UptoQ.eval hc m c ρ _ _ fun v => .andThen (.same (Src.truth v)) fun t => .branch hr (.fail _)
  | .ite c a b rest, ht, ρ, hρ => by
    have ht' : (a.tame && b.tame && rest.tame) = true := ht
    rw [Bool.and_eq_true, Bool.and_eq_true] at ht'
    exact UptoQ.eval hc m c ρ _ _ fun v => .andThen (.same (Src.truth v)) fun t =>
      .thenQ (.branch (UptoQ.exec m a ht'.1.1 ρ hρ) (UptoQ.exec m b ht'.1.2 ρ hρ)) fun _ hfl => UptoQ.after hfl fun ρ' h' => UptoQ.exec m rest ht'.2 ρ' h'
  | .forIn x it body rest, ht, ρ, hρ => by
    have ht' : (!Nat.beq n!"len" x && body.tame && rest.tame) = true := ht
    rw [Bool.and_eq_true, Bool.and_eq_true, Bool.not_eq_true'] at ht'
    refine UptoQ.eval hc m it ρ _ _ fun v => ?_
    cases v with
    | range n =>
      exact .thenQ (UptoQ.forRange (fun ρ h => UptoQ.exec m body ht'.1.2 ρ h) x ht'.1.1 _ _ _ hρ) fun _ hfl =>
        UptoQ.after hfl fun ρ' h' => UptoQ.exec m rest ht'.2 ρ' h'
    | _ => exact .fail _
  | .ret e, _, ρ, _ => UptoQ.eval hc m e ρ _ _ fun _ => UptoQ.done trivial
  | .raise _, _, _, _ => .fail _

end

/-- No parameter is called `len`, and the body is tame. -/
def Fun.tame (f : Fun) : Bool := f.params.all (fun p => !Nat.beq n!"len" p.1) && f.body.tame

/-- All functions of the package are. -/
theorem all_tame : classes.all (fun d => d.funs.all Fun.tame) = true := by decide +kernel

theorem method_tame {c f m : Name} {g : Fun} (h : method c f = some (m, g)) : g.tame = true := by
  have key : ∀ d ∈ classes, ∀ g, findFun f d.funs = some g → g.tame = true := fun d hd g hg =>
    List.all_eq_true.mp (List.all_eq_true.mp all_tame d hd) g (findFun_mem hg).1
  unfold method at h
  split at h
  · cases h
  · rename_i d hd
    split at h
    · rename_i g hg
      cases h
      exact key d (findCls_mem hd) _ hg
    · split at h
      · cases h
      · rename_i b hb
        split at h
        · rename_i g hg
          cases h
          exact key b (findCls_mem hb) _ hg
        · cases h

theorem bindArgs_tame {m : Name} : ∀ {ps : List (Name × Ex)} {pos : List PVal} {kw : List (Name × PVal)} {ρ : Env},
    ps.all (fun p => !Nat.beq n!"len" p.1) = true → bindArgs m ps pos kw = some ρ → Unbound n!"len" ρ := by
  have cons : ∀ {x : Name} {v : PVal} {ρ : Env}, (!Nat.beq n!"len" x) = true → Unbound n!"len" ρ → Unbound n!"len" ((x, v) :: ρ) := by
    intro x v ρ hx h
    unfold Unbound find
    rw [Bool.not_eq_true'] at hx
    rw [hx]
    exact h
  intro ps
  induction ps with
  | nil =>
    intro pos kw ρ _ h
    cases pos with
    | nil => cases h; rfl
    | cons v pos => cases h
  | cons p ps ih =>
    intro pos kw ρ hp h
    obtain ⟨x, d⟩ := p
    rw [List.all_cons, Bool.and_eq_true] at hp
    cases pos with
    | cons v pos =>
      unfold bindArgs at h
      split at h
      · rename_i ρ' h'
        cases h
        exact cons hp.1 (ih hp.2 h')
      · cases h
    | nil =>
      unfold bindArgs at h
      split at h
      · split at h
        · rename_i h'
          cases h
          exact cons hp.1 (ih hp.2 h')
        · cases h
      · split at h
        · split at h
          · rename_i h'
            cases h
            exact cons hp.1 (ih hp.2 h')
          · cases h
        · cases h

theorem UptoQ.run {call call' : Call} (hc : ∀ r c f as, Upto S (call r c f as) (call' r c f as)) (o : Bool) (ho : o = true → ∀ e, AssertErr e → S e)
    (r : PVal) (c f : Name) (as : Args) : Upto S (Src.run call r c f as) (Src.runO o call' r c f as) := by
  unfold Src.run Src.runO
  cases hm : method c f with
  | none => exact .fail _
  | some mg =>
    obtain ⟨m, g⟩ := mg
    have ht := method_tame hm
    unfold Fun.tame at ht
    rw [Bool.and_eq_true] at ht
    dsimp only
    cases knownKw g.params as.kw with
    | false => exact .fail _
    | true =>
      dsimp only
      cases hb : bindArgs m g.params (withSelf g r c as.pos) as.kw with
      | none => exact .fail _
      | some ρ => exact .thenQ (UptoQ.exec hc o ho m g.body ht.2 ρ (bindArgs_tame ht.1 hb)) fun fl _ => .same _

theorem St.opt_false : ∀ st : St, st.opt false = st
  | .done => rfl
  | .assign x e rest => congrArg (St.assign x e) rest.opt_false
  | .aug x op e rest => congrArg (St.aug x op e) rest.opt_false
  | .unpack xs e rest => congrArg (St.unpack xs e) rest.opt_false
  | .setAttr t a e rest => congrArg (St.setAttr t a e) rest.opt_false
  | .expr e rest => congrArg (St.expr e) rest.opt_false
  | .assert c rest => congrArg (St.assert c) rest.opt_false
  | .ite c a b rest => by
    change St.ite c (a.opt false) (b.opt false) (rest.opt false) = _
    rw [a.opt_false, b.opt_false, rest.opt_false]
  | .forIn x it body rest => by
    change St.forIn x it (body.opt false) (rest.opt false) = _
    rw [body.opt_false, rest.opt_false]
  | .ret e => rfl
  | .raise e => rfl

theorem runO_false (call : Call) : runO false call = run call := by
  funext r c f as
  unfold runO run
  cases method c f with
  | none => rfl
  | some mg =>
    obtain ⟨m, g⟩ := mg
    dsimp only
    cases knownKw g.params as.kw with
    | false => rfl
    | true =>
      dsimp only
      cases bindArgs m g.params (withSelf g r c as.pos) as.kw with
      | none => rfl
      | some ρ =>
        dsimp only
        rw [St.opt_false]

/-- `python -O` does what Python does, unless an assertion raises. -/
theorem callO_upto : ∀ n r c f as, Upto AssertErr (callN n r c f as) (callO n r c f as)
  | 0, _, _, _, _ => .same _
  | n + 1, r, c, f, as => UptoQ.run (callO_upto n) true (fun _ _ h => h) r c f as

/-- With more room, functions do the same, unless the room is not enough. -/
theorem callN_upto : ∀ n k r c f as, Upto (· = .recursionError) (callN n r c f as) (callN (n + k) r c f as)
  | 0, _, _, _, _, _ => UptoQ.raises (S := (· = .recursionError)) .recursionError rfl _
  | n + 1, k, r, c, f, as => by
    have h := UptoQ.run (S := (· = .recursionError)) (callN_upto n k) false (fun h => by cases h) r c f as
    rw [runO_false] at h
    rw [Nat.add_right_comm]
    exact h

theorem St.tame_opt : ∀ st : St, st.tame = true → (st.opt true).tame = true ∧ (st.opt true).opt false = st.opt true := by
  intro st h
  refine ⟨?_, St.opt_false _⟩
  induction st with
  | done => rfl
  | assign x e rest ih =>
    have h' : (!Nat.beq n!"len" x && rest.tame) = true := h
    rw [Bool.and_eq_true] at h'
    exact Bool.and_eq_true _ _ |>.mpr ⟨h'.1, ih h'.2⟩
  | aug x op e rest ih =>
    have h' : (!Nat.beq n!"len" x && rest.tame) = true := h
    rw [Bool.and_eq_true] at h'
    exact Bool.and_eq_true _ _ |>.mpr ⟨h'.1, ih h'.2⟩
  | unpack xs e rest ih =>
    have h' : (xs.all (fun x => !Nat.beq n!"len" x) && rest.tame) = true := h
    rw [Bool.and_eq_true] at h'
    exact Bool.and_eq_true _ _ |>.mpr ⟨h'.1, ih h'.2⟩
  | setAttr t a e rest ih => exact ih h
  | expr e rest ih => exact ih h
  | assert c rest ih =>
    have h' : (quiet c && rest.tame) = true := h
    rw [Bool.and_eq_true] at h'
    exact ih h'.2
  | ite c a b rest iha ihb ih =>
    have h' : (a.tame && b.tame && rest.tame) = true := h
    rw [Bool.and_eq_true, Bool.and_eq_true] at h'
    exact Bool.and_eq_true _ _ |>.mpr ⟨Bool.and_eq_true _ _ |>.mpr ⟨iha h'.1.1, ihb h'.1.2⟩, ih h'.2⟩
  | forIn x it body rest ihb ih =>
    have h' : (!Nat.beq n!"len" x && body.tame && rest.tame) = true := h
    rw [Bool.and_eq_true, Bool.and_eq_true] at h'
    exact Bool.and_eq_true _ _ |>.mpr ⟨Bool.and_eq_true _ _ |>.mpr ⟨h'.1.1, ihb h'.1.2⟩, ih h'.2⟩
  | ret e => rfl
  | raise e => rfl

theorem UptoQ.runO {call call' : Call} (hc : ∀ r c f as, Upto S (call r c f as) (call' r c f as)) (r : PVal) (c f : Name) (as : Args) :
    Upto S (Src.runO true call r c f as) (Src.runO true call' r c f as) := by
  unfold Src.runO
  cases hm : method c f with
  | none => exact .fail _
  | some mg =>
    obtain ⟨m, g⟩ := mg
    have ht := method_tame hm
    unfold Fun.tame at ht
    rw [Bool.and_eq_true] at ht
    dsimp only
    cases knownKw g.params as.kw with
    | false => exact .fail _
    | true =>
      dsimp only
      cases hb : bindArgs m g.params (withSelf g r c as.pos) as.kw with
      | none => exact .fail _
      | some ρ =>
        have ⟨t1, t2⟩ := St.tame_opt g.body ht.2
        have h := UptoQ.exec hc false (fun h => by cases h) m (g.body.opt true) t1 ρ (bindArgs_tame ht.1 hb)
        rw [t2] at h
        exact .thenQ h fun fl _ => .same _

/-- The same with `-O`. -/
theorem callO_room : ∀ n k r c f as, Upto (· = .recursionError) (callO n r c f as) (callO (n + k) r c f as)
  | 0, _, _, _, _, _ => UptoQ.raises (S := (· = .recursionError)) .recursionError rfl _
  | n + 1, k, r, c, f, as => by
    rw [Nat.add_right_comm]
    exact UptoQ.runO (callO_room n k) r c f as

end Genie.Src
