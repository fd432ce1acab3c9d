import Verif.Proof.Source.Same
import Verif.Model.HeapReaders
/-!
# The source of `ByteHandler` and `datatypes.py` does what the model says
-/

namespace Genie.Src

/-- The representation of an `int`. -/
abbrev ofInt (i : Int) : PVal := .h (.int i)
/-- The representation of a `float`. -/
abbrev ofFloat (x : PyFloat) : PVal := .h (.float x)
/-- The representation of a `str`. -/
abbrev ofStr (s : PyStr) : PVal := .h (.str s)

theorem andThen_offset (k : PVal → M β) (H : Heap) (s : ByteHandler) :
    andThen (handlerAttr n!"offset") k H s = k (ofInt s.offset) H s := rfl

theorem andThen_content (k : PVal → M β) (H : Heap) (s : ByteHandler) :
    andThen (handlerAttr n!"content") k H s = k (.bytes s.content) H s := rfl

theorem andThen_setOffset (k : PUnit → M β) (i : Int) (hi : 0 ≤ i) (H : Heap) (s : ByteHandler) :
    andThen (setHandlerAttr n!"offset" (ofInt i)) k H s = k () H { s with offset := i.toNat } := by
  have : ¬ i < 0 := by omega
  simp [andThen, setHandlerAttr, this]

/-- `consume_range` — `/repo/src/genieutils/common.py:95-99`. -/
theorem consume_range {n : Nat} (hn : 1 ≤ n) (k : Nat) :
    Same PVal.bytes (callN n .handler n!"ByteHandler" n!"consume_range" ⟨[.h (.int k)], []⟩) (HReader.lift (Genie.consumeRange k)) := by
  refine Same.call hn fun m _ => ?_
  enter_fun
  refine Same.result ?_
  intro H s t hs
  refine ⟨{ s with offset := s.offset + k }, ⟨hs.content, ?_, hs.version⟩, ?_⟩
  · simp [hs.offset]
  · peel_at
    rw [andThen_offset]
    peel_at
    rw [andThen_setOffset _ _ (by omega)]
    peel_at
    rw [andThen_content]
    peel_at
    have h3 : ((t.offset : Int) + (k : Int)).toNat = t.offset + k := by omega
    simp only [done, Int.toNat_natCast, hs.content, hs.offset, h3]

theorem lift_bind (r : Reader α) (f : α → Reader β) : HReader.lift (r >>= f) = (HReader.lift r >>= fun a => HReader.lift (f a)) := by
  funext H s
  show HReader.lift (r >>= f) H s = match HReader.lift r H s with
    | .error e => .error e
    | .ok (a, H', s') => HReader.lift (f a) H' s'
  have e : (r >>= f) s = match r s with
    | .error e => .error e
    | .ok (a, s') => f a s' := rfl
  simp only [HReader.lift, e]
  cases r s with
  | error e => rfl
  | ok x => rfl

theorem lift_pure (a : α) : HReader.lift (pure a) = pure a := rfl

theorem lift_raise (e : PyErr) : HReader.lift (α := α) (Genie.raise e) = HReader.raise e := rfl

theorem bind_assoc' (f : HReader α) (g : α → HReader β) (k : β → HReader γ) : (f >>= g) >>= k = f >>= fun a => g a >>= k := by
  funext H s
  simp only [bind]
  cases f H s <;> rfl

theorem pure_bind' (a : α) (k : α → HReader β) : pure a >>= k = k a := rfl

theorem bind_pure' (f : HReader α) : (f >>= fun a => pure a) = f := by
  funext H s
  simp only [bind, pure]
  cases f H s <;> rfl

/-- A computation that touches neither objects nor the handler. -/
theorem Same.py (x : Py α) : Same id (pyM x) (HReader.lift (liftPy x)) := by
  intro H s t hs
  cases x with
  | error e => rfl
  | ok a => exact ⟨s, hs, rfl⟩

/-- `Int.from_bytes` — `/repo/src/genieutils/datatypes.py:19-21`. -/
theorem Int_from_bytes {n : Nat} (hn : 1 ≤ n) (b : Bytes) (signed : Bool) :
    Same ofInt (callN n (.cls n!"Int") n!"Int" n!"from_bytes" ⟨[.bytes b], [(n!"signed", .bool signed)]⟩)
      (pure (Genie.Int_from_bytes b signed)) := by
  refine Same.call hn fun m _ => ?_
  enter_fun
  refine Same.result ?_
  peel
  exact Same.done _

/-- `Float.from_bytes` — `/repo/src/genieutils/datatypes.py:29-31`. -/
theorem Float_from_bytes {n : Nat} (hn : 1 ≤ n) (b : Bytes) :
    Same ofFloat (callN n (.cls n!"Float") n!"Float" n!"from_bytes" ⟨[.bytes b], []⟩) (HReader.lift (liftPy (Genie.Float_from_bytes b))) := by
  refine Same.call hn fun m _ => ?_
  enter_fun
  refine Same.result ?_
  peel
  have h := ((Same.py (unpackNativeF b)).tail (F := fun x => PVal.seq [.float x]))
  have := Same.bind (ψ := fun x : PyFloat => Flow.ret (ofFloat x)) (k' := fun x => pure x) (k := fun v =>
      eval (callN m) Float.src.module (Ex.int 0) [(n!"content", PVal.bytes b)] fun w =>
        andThen (indexM v w) fun v => done (Flow.ret v)) h (fun x => by
    peel
    exact Same.done x)
  rw [bind_pure'] at this
  exact this

/-- `String.from_bytes` — `/repo/src/genieutils/datatypes.py:5-7`. -/
theorem String_from_bytes {n : Nat} (hn : 1 ≤ n) (b : Bytes) :
    Same ofStr (callN n (.cls n!"String") n!"String" n!"from_bytes" ⟨[.bytes b], []⟩) (HReader.lift (liftPy (Genie.String_from_bytes b))) := by
  refine Same.call hn fun m _ => ?_
  enter_fun
  refine Same.result ?_
  peel
  exact ((Same.py (strDecode (rstripNul b))).tail _).tail _

/-- Enter a function of at most `n` calls inside each other. -/
macro "call_fun" : tactic => `(tactic| (refine Same.call (by omega) fun m _ => ?_; enter_fun; refine Same.result ?_; peel))

/-- `read_int_8` — `/repo/src/genieutils/common.py:110-111`. -/
theorem read_int_8 {n : Nat} (hn : 2 ≤ n) :
    Same ofInt (callN n .handler n!"ByteHandler" n!"read_int_8" ⟨[], []⟩) (HReader.lift Genie.readInt8) := by
  call_fun
  unfold Genie.readInt8
  rw [lift_bind]
  refine Same.bind (consume_range (by omega) 1) fun b => ?_
  peel
  exact (Int_from_bytes (by omega) b false).tail _

/-- `read_int_16` — `/repo/src/genieutils/common.py:161-162`. -/
theorem read_int_16 {n : Nat} (hn : 2 ≤ n) :
    Same ofInt (callN n .handler n!"ByteHandler" n!"read_int_16" ⟨[], []⟩) (HReader.lift (Genie.readInt16)) := by
  call_fun
  unfold Genie.readInt16
  rw [lift_bind]
  refine Same.bind (consume_range (by omega) 2) fun b => ?_
  peel
  exact (Int_from_bytes (by omega) b true).tail _

/-- `read_int_16(signed=…)` — `/repo/src/genieutils/common.py:161-162`. -/
theorem read_int_16_signed {n : Nat} (hn : 2 ≤ n) (signed : Bool) :
    Same ofInt (callN n .handler n!"ByteHandler" n!"read_int_16" ⟨[], [(n!"signed", .bool signed)]⟩)
      (HReader.lift (Genie.readInt16 (signed := signed))) := by
  call_fun
  unfold Genie.readInt16
  rw [lift_bind]
  refine Same.bind (consume_range (by omega) 2) fun b => ?_
  peel
  exact (Int_from_bytes (by omega) b signed).tail _

/-- `read_int_32` — `/repo/src/genieutils/common.py:197-198`. -/
theorem read_int_32 {n : Nat} (hn : 2 ≤ n) :
    Same ofInt (callN n .handler n!"ByteHandler" n!"read_int_32" ⟨[], []⟩) (HReader.lift (Genie.readInt32)) := by
  call_fun
  unfold Genie.readInt32
  rw [lift_bind]
  refine Same.bind (consume_range (by omega) 4) fun b => ?_
  peel
  exact (Int_from_bytes (by omega) b true).tail _

/-- `read_int_32(signed=…)` — `/repo/src/genieutils/common.py:197-198`. -/
theorem read_int_32_signed {n : Nat} (hn : 2 ≤ n) (signed : Bool) :
    Same ofInt (callN n .handler n!"ByteHandler" n!"read_int_32" ⟨[], [(n!"signed", .bool signed)]⟩)
      (HReader.lift (Genie.readInt32 (signed := signed))) := by
  call_fun
  unfold Genie.readInt32
  rw [lift_bind]
  refine Same.bind (consume_range (by omega) 4) fun b => ?_
  peel
  exact (Int_from_bytes (by omega) b signed).tail _

/-- `read_float` — `/repo/src/genieutils/common.py:220-221`. -/
theorem read_float {n : Nat} (hn : 2 ≤ n) :
    Same ofFloat (callN n .handler n!"ByteHandler" n!"read_float" ⟨[], []⟩) (HReader.lift Genie.readFloat) := by
  call_fun
  unfold Genie.readFloat
  rw [lift_bind]
  refine Same.bind (consume_range (by omega) 4) fun b => ?_
  peel
  rw [lift_bind]
  refine Same.ghost ?_
  exact (Float_from_bytes (by omega) b).tail _

/-- `read_string` — `/repo/src/genieutils/common.py:107-108`. -/
theorem read_string {n : Nat} (hn : 2 ≤ n) (k : Nat) :
    Same ofStr (callN n .handler n!"ByteHandler" n!"read_string" ⟨[.h (.int k)], []⟩) (HReader.lift (Genie.readString k)) := by
  call_fun
  unfold Genie.readString
  rw [lift_bind]
  refine Same.bind (consume_range (by omega) k) fun b => ?_
  peel
  exact (String_from_bytes (by omega) b).tail _

theorem readInt16_nonneg {H : Heap} {t : ByteHandler} {a : Int} {H' : Heap} {t' : ByteHandler}
    (h : HReader.lift (Genie.readInt16 (signed := false)) H t = .ok (a, H', t')) : 0 ≤ a := by
  have e : HReader.lift (Genie.readInt16 (signed := false)) H t =
      .ok (Genie.Int_from_bytes (slice t.content t.offset (t.offset + 2)) false, H,
        { t with offset := t.offset + 2, lossy := t.lossy || decide (0 < 2 ∧ t.content.length < t.offset + 2) }) := rfl
  rw [e] at h
  simp only [Except.ok.injEq, Prod.mk.injEq] at h
  rw [← h.1]
  simp [Genie.Int_from_bytes, intFromBytes]

/-- `read_debug_string` — `/repo/src/genieutils/common.py:101-105`. -/
theorem read_debug_string {n : Nat} (hn : 3 ≤ n) :
    Same ofStr (callN n .handler n!"ByteHandler" n!"read_debug_string" ⟨[], []⟩) (HReader.lift Genie.readDebugString) := by
  call_fun
  unfold Genie.readDebugString
  rw [lift_bind]
  refine Same.bind (read_int_16_signed (by omega) false) fun tmp_size => ?_
  peel
  by_cases ht : tmp_size = 2656
  · subst ht
    rw [if_neg (by simp)]
    peel
    rw [lift_bind]
    refine Same.bindP (P := fun i => 0 ≤ i) (read_int_16_signed (by omega) false) ?_ fun size hsize => ?_
    · intro H t a H' t' h
      exact readInt16_nonneg h
    obtain ⟨k, rfl⟩ := Int.eq_ofNat_of_zero_le hsize
    peel
    rw [lift_bind, Int.toNat_natCast]
    refine Same.bind (consume_range (by omega) k) fun b => ?_
    peel
    rw [lift_bind]
    refine Same.ghost ?_
    exact (String_from_bytes (by omega) b).tail _
  · rw [if_pos ht, lift_raise]
    simp only [ht, decide_false, branch]
    exact Same.fail _

/-! ## lists -/

theorem findCls_mem {c : Name} {d : Cls} : ∀ {cs : List Cls}, findCls c cs = some d → d ∈ cs
  | [], h => by simp [findCls] at h
  | e :: cs, h => by
    unfold findCls at h
    split at h
    · simp at h; subst h; exact List.mem_cons_self
    · exact List.mem_cons_of_mem _ (findCls_mem h)

/-- A name that no class defines is no method. -/
theorem no_method {f : Name} (hf : classes.all (fun d => (findFun f d.funs).isNone) = true) (c : Name) : method c f = none := by
  unfold method
  split
  · rfl
  · rename_i d hd
    have h1 := List.all_eq_true.mp hf d (findCls_mem hd)
    rw [Option.isNone_iff_eq_none] at h1
    rw [h1]
    dsimp only
    split
    · rfl
    · rename_i b hb
      have h2 := List.all_eq_true.mp hf b (findCls_mem hb)
      rw [Option.isNone_iff_eq_none] at h2
      rw [h2]

theorem no_append (c : Name) : method c n!"append" = none := no_method (by decide +kernel) c

theorem append_eq (v e : HVal) (H : Heap) (s : ByteHandler) : HReader.append v e H s =
    match W.cell H v with
    | some (.list items) => HReader.update v (.list (items ++ [e])) H s
    | _ => .error .attributeError := by
  cases v with
  | ref a =>
    have e1 : HReader.cell (.ref a) .attributeError H s = match H[a]? with
        | some c => .ok (c, H, s)
        | none => .error .attributeError := rfl
    unfold HReader.append
    simp only [bind, e1, W.cell]
    cases H[a]? with
    | none => rfl
    | some c => cases c <;> rfl
  | _ => rfl

/-- `v.append(e)` (Python). -/
theorem Same.append {m : Nat} (hm : 1 ≤ m) (v e : HVal) :
    Same (fun _ => PVal.h .none) (objMethod (callN m) v n!"append" ⟨[.h e], []⟩) (HReader.append v e) := by
  obtain ⟨m, rfl⟩ : ∃ k, m = k + 1 := ⟨m - 1, by omega⟩
  intro H s t hs
  have hp : plainMethod v n!"append" ⟨[.h e], []⟩ H s = andThen (HReader.append v e) (fun _ => Src.done (.h .none)) H s := rfl
  have hcall : ∀ c H s, callN (m + 1) (.h v) c n!"append" ⟨[.h e], []⟩ H s = .error .attributeError := by
    intro c H s
    rw [callN_succ]
    unfold run
    rw [no_append]
    rfl
  have h1 := append_eq v e H t
  have h2 := append_eq v e H s
  cases hv : W.cell H v with
  | none =>
    simp only [hv] at h1 h2
    simp only [h1, objMethod, hv]
    rw [hp, andThen, h2]
  | some c =>
    cases c with
    | list items =>
      obtain ⟨a, rfl⟩ : ∃ a, v = .ref a := by
        cases v <;> simp_all [W.cell]
      simp only [hv] at h1 h2
      rw [h1]
      refine ⟨s, hs, ?_⟩
      simp only [objMethod, hv]
      rw [hp, andThen, h2]
      rfl
    | tuple items =>
      simp only [hv] at h1 h2
      simp only [h1, objMethod, hv]
      rw [hp, andThen, h2]
    | record c attrs =>
      simp only [hv] at h1 h2
      simp only [h1, objMethod, hv]
      exact hcall _ _ _

/-- A loop body that ends in an environment with the property `I`. -/
def SameNext (I : Env → Prop) (f : M Flow) (g : HReader α) : Prop :=
  ∀ H s t, Like s t →
    match g H t with
    | .error e => f H s = .error e
    | .ok (_, H', t') => ∃ s' ρ, Like s' t' ∧ I ρ ∧ f H s = .ok (.next ρ, H', s')

theorem SameNext.of {I : Env → Prop} {φ : α → Env} {f : M Flow} {g : HReader α} (h : Same (fun a => Flow.next (φ a)) f g) (hI : ∀ a, I (φ a)) :
    SameNext I f g := by
  intro H s t hs
  have h0 := h H s t hs
  cases hg : g H t with
  | error e => rw [hg] at h0; exact h0
  | ok r =>
    obtain ⟨a, H', t'⟩ := r
    rw [hg] at h0
    obtain ⟨s', hs', hf⟩ := h0
    exact ⟨s', φ a, hs', hI a, hf⟩

/-- `for x in range(…)`, with an invariant of the local variables. -/
theorem SameNext.loop {I : Env → Prop} {body : Env → M Flow} {x : Name} {step : Nat → HReader α} {L : Nat → Nat → HReader PUnit}
    (h0 : ∀ i, L i 0 = pure ()) (h1 : ∀ i n, L i (n + 1) = (step i >>= fun _ => L (i + 1) n))
    (hbody : ∀ i ρ, I ρ → SameNext I (setK x (.h (.int (i : Nat))) ρ body) (step i)) :
    ∀ n i ρ, I ρ → SameNext I (forRange body x n i ρ) (L i n)
  | 0, i, ρ, hI => by
    rw [h0]
    intro H s t hs
    exact ⟨s, ρ, hs, hI, rfl⟩
  | n + 1, i, ρ, hI => by
    rw [h1]
    intro H s t hs
    have hb := hbody i ρ hI H s t hs
    have e1 : (step i >>= fun _ => L (i + 1) n) H t = match step i H t with
        | .error e => .error e
        | .ok (_, H', t') => L (i + 1) n H' t' := rfl
    have e2 : forRange body x (n + 1) i ρ = setK x (.h (.int (i : Nat))) ρ fun ρ' => andThen (body ρ') fun fl =>
        after fl (forRange body x n (i + 1)) := rfl
    have e3 : ∀ (k' : Flow → M Flow) (ρ : Env) (k : Env → M Flow),
        setK x (.h (.int (i : Nat))) ρ (fun ρ' => andThen (k ρ') k') = andThen (setK x (.h (.int (i : Nat))) ρ k) k' := by
      intro k' ρ
      induction ρ with
      | nil => intro k; rfl
      | cons p ρ ih =>
        intro k
        obtain ⟨y, w⟩ := p
        unfold setK
        split
        · rfl
        · exact ih _
    rw [e1, e2, e3]
    cases hst : step i H t with
    | error e =>
      rw [hst] at hb
      simp only [andThen, hb]
    | ok r =>
      obtain ⟨a, H', t'⟩ := r
      rw [hst] at hb
      obtain ⟨s', ρ', hs', hI', hf⟩ := hb
      have ih := SameNext.loop h0 h1 hbody n (i + 1) ρ' hI' H' s' t' hs'
      simp only [andThen, hf, after]
      exact ih

/-- What comes after a loop. -/
theorem SameNext.bind {I : Env → Prop} {f : M Flow} {g : HReader α} {k : Env → M Flow} {k' : α → HReader γ} {ψ : γ → Flow}
    (h : SameNext I f g) (hk : ∀ ρ a, I ρ → Same ψ (k ρ) (k' a)) : Same ψ (andThen f fun fl => after fl k) (g >>= k') := by
  intro H s t hs
  have h0 := h H s t hs
  have e : (g >>= k') H t = match g H t with
      | .error e => .error e
      | .ok (a, H', s') => k' a H' s' := rfl
  rw [e]
  cases hg : g H t with
  | error e => rw [hg] at h0; simp only [andThen, h0]
  | ok r =>
    obtain ⟨a, H', t'⟩ := r
    rw [hg] at h0
    obtain ⟨s', ρ, hs', hI, hf⟩ := h0
    have := hk ρ a hI H' s' t' hs'
    simp only [andThen, hf, after]
    exact this

/-- One round of the loop that fills a list. -/
def fillStep (v : HVal) (r : HReader HVal) : HReader HVal := r >>= fun e => HReader.append v e >>= fun _ => pure e

theorem appendLoop_succ (v : HVal) (r : HReader HVal) (n : Nat) :
    HReader.appendLoop v r (n + 1) = (fillStep v r >>= fun _ => HReader.appendLoop v r n) := by
  unfold fillStep
  rw [bind_assoc']
  show (r >>= fun e => HReader.append v e >>= fun _ => HReader.appendLoop v r n) = _
  congr 1
  funext e
  rw [bind_assoc']
  rfl

/-- The local variables in the loop of `read_…_array`: the parameter `size`, the list, and in later rounds `i`. -/
def ArrayEnv (k : Int) (v : HVal) (ρ : Env) : Prop :=
  ρ = [(n!"self", .handler), (n!"size", ofInt k), (n!"elements", .h v)] ∨
  ∃ i, ρ = [(n!"self", .handler), (n!"size", ofInt k), (n!"elements", .h v), (n!"i", i)]

theorem Same.post {φ : β → γ} {F : α → β} {f : M γ} {g : HReader α} (h : Same (fun a => φ (F a)) f g) :
    Same φ f (g >>= fun a => pure (F a)) := by
  intro H s t hs
  have h0 := h H s t hs
  have e : (g >>= fun a => pure (F a)) H t = match g H t with
      | .error e => .error e
      | .ok (a, H', s') => .ok (F a, H', s') := rfl
  rw [e]
  cases hg : g H t with
  | error e => rw [hg] at h0; exact h0
  | ok x => rw [hg] at h0; exact h0

theorem HReader_int_same {f : M PVal} {r : Reader Int} (h : Same ofInt f (HReader.lift r)) : Same PVal.h f (HReader.int r) :=
  Same.post (φ := PVal.h) (F := HVal.int) h

theorem HReader_float_same {f : M PVal} {r : Reader PyFloat} (h : Same ofFloat f (HReader.lift r)) : Same PVal.h f (HReader.float r) :=
  Same.post (φ := PVal.h) (F := HVal.float) h

/-- `elements.append(self.r())` -/
def fillBody (r : Name) : St :=
  .expr (.call (.attr (.name n!"elements") n!"append") (.arg (.call (.attr (.name n!"self") r) .argNil) .argNil)) .done

/-- The loop of `read_int_8_array` and the like. -/
theorem fill_array {m : Nat} (hm : 1 ≤ m) {r : Name} {rd : HReader HVal} (hr : Same PVal.h (callN m .handler n!"ByteHandler" r ⟨[], []⟩) rd)
    (k : Int) (stored : Bool) :
    Same (fun a => Flow.ret (PVal.h a))
      (andThen (andThen (HReader.alloc (Cell.list [])) fun v => done (PVal.h v)) fun v =>
        setK n!"elements" v [(n!"self", PVal.handler), (n!"size", PVal.h (HVal.int k))]
          (exec (callN m) n!"common"
            (St.forIn n!"i" (.call (.name n!"range") (.arg (.name n!"size") .argNil)) (fillBody r) (.ret (.name n!"elements")))))
      (HReader.readArray rd k stored) := by
  refine Same.ghost ?_
  refine Same.bind (Same.allocH rfl) fun v => ?_
  peel
  refine SameNext.bind (I := ArrayEnv k v)
    (SameNext.loop (L := fun _ n => HReader.appendLoop v rd n) (step := fun _ => fillStep v rd) (fun _ => rfl)
      (fun _ n => appendLoop_succ v rd n) ?_ _ 0 _ (Or.inl rfl)) ?_
  · intro i ρ hρ
    refine SameNext.of (φ := fun _ => [(n!"self", .handler), (n!"size", ofInt k), (n!"elements", .h v), (n!"i", ofInt i)]) ?_
      (fun _ => Or.inr ⟨_, rfl⟩)
    rcases hρ with rfl | ⟨j, rfl⟩
    · peel
      refine Same.bind hr fun e => ?_
      peel
      refine Same.bind (Same.append hm v e) fun _ => ?_
      peel
      exact Same.done _
    · peel
      refine Same.bind hr fun e => ?_
      peel
      refine Same.bind (Same.append hm v e) fun _ => ?_
      peel
      exact Same.done _
  · intro ρ _ hρ
    rcases hρ with rfl | ⟨j, rfl⟩
    · peel
      exact Same.done _
    · peel
      exact Same.done _

/-- `read_int_8_array` — `/repo/src/genieutils/common.py:113-117`. -/
theorem read_int_8_array {n : Nat} (hn : 3 ≤ n) (k : Int) :
    Same PVal.h (callN n .handler n!"ByteHandler" n!"read_int_8_array" ⟨[.h (.int k)], []⟩) (HReader.readInt8Array k) := by
  call_fun
  exact fill_array (by omega) (HReader_int_same (read_int_8 (by omega))) _ _

end Genie.Src
