import Verif.Proof.Heap.Rep
/-!
# Building objects along the reader

`Sim P ver Γ hk k tree`: started in a heap that extends `P`, in which the local variables hold the trees `Γ` (pairwise disjoint, made of
objects outside `P`), the heap reader `hk` does what the value reader `k` does: the same exception, or the same final handler and an object
whose value is the `tree` of the result, made of distinct objects outside `P`; `P` itself is unchanged.
-/

namespace Genie
open HReader

/-- A local variable that holds an object. -/
structure Local where
  v : HVal
  t : ObjTree
  fp : List Nat

/-- All objects of the local variables. -/
def Local.all (Γ : List Local) : List Nat := Γ.flatMap (·.fp)

/-- The local variables hold pairwise disjoint trees, of objects from `lo` on. -/
structure Own (lo : Nat) (H : Heap) (Γ : List Local) : Prop where
  rep : ∀ e ∈ Γ, Rep H e.v e.t e.fp
  nodup : (Local.all Γ).Nodup
  fresh : ∀ a ∈ Local.all Γ, lo ≤ a

/-- Same outcome. -/
def Post (P : Heap) (ver : Version) (tree : α → ObjTree) : Py (HVal × Heap × ByteHandler) → Py (α × ByteHandler) → Prop
  | .error e, .error e' => e = e'
  | .ok (v, H, s), .ok (a, s') => s = s' ∧ s.version = ver ∧
      ∃ N fp, H = P ++ N ∧ Rep H v (tree a) fp ∧ fp.Nodup ∧ ∀ x ∈ fp, P.length ≤ x
  | _, _ => False

def Sim (P : Heap) (ver : Version) (Γ : List Local) (hk : HReader HVal) (k : Reader α) (tree : α → ObjTree) : Prop :=
  ∀ N s, s.version = ver → Own P.length (P ++ N) Γ → Post P ver tree (hk (P ++ N) s) (k s)

/-- `hr` builds the object whose value `r` returns. -/
def Builds (hr : HReader HVal) (r : Reader α) (tree : Version → α → ObjTree) : Prop :=
  ∀ P ver, Sim P ver [] hr r (tree ver)

/-- `r` does not change the version. -/
class Keeps (r : Reader α) : Prop where
  keeps : ∀ s a s', r s = .ok (a, s') → s'.version = s.version

instance : Keeps (pure a : Reader α) := ⟨fun s _ _ h => by cases h; rfl⟩
instance {r : Reader β} {f : β → Reader α} [hr : Keeps r] [hf : ∀ a, Keeps (f a)] : Keeps (r >>= f) := ⟨fun s a s' h => by
  change (match r s with | .error e => _ | .ok (a, h') => f a h') = _ at h
  split at h
  · cases h
  · next e => exact ((hf _).keeps _ _ _ h).trans (hr.keeps _ _ _ e)⟩
instance : Keeps (consumeRange n) := ⟨fun s _ _ h => by cases h; rfl⟩
instance : Keeps (noteLossy b) := ⟨fun s _ _ h => by cases h; rfl⟩
instance : Keeps getVersion := ⟨fun s _ _ h => by cases h; rfl⟩
instance : Keeps (liftPy x : Reader α) := ⟨fun s _ _ h => by
  unfold liftPy at h; split at h <;> cases h; rfl⟩
instance : Keeps (raise e : Reader α) := ⟨fun s _ _ h => by cases h⟩
instance {a b : Reader α} {c : Prop} [Keeps a] [Keeps b] [Decidable c] : Keeps (if c then a else b) := by
  split <;> assumption
instance : Keeps readInt8 := inferInstanceAs (Keeps (do let c ← consumeRange 1; return Int_from_bytes c false))
instance : Keeps (readInt16 b) := inferInstanceAs (Keeps (do let c ← consumeRange 2; return Int_from_bytes c b))
instance : Keeps (readInt32 b) := inferInstanceAs (Keeps (do let c ← consumeRange 4; return Int_from_bytes c b))
instance : Keeps readFloat := by unfold readFloat; infer_instance
instance : Keeps (readString n) := by unfold readString; infer_instance
instance : Keeps readDebugString := by unfold readDebugString; infer_instance
instance {r : Reader α} [Keeps r] : Keeps (repeatR r n) := by
  induction n with
  | zero => unfold repeatR; infer_instance
  | succ n ih => unfold repeatR; infer_instance
instance {r : Reader α} [Keeps r] : Keeps (readArray r n b) := by unfold readArray; infer_instance
instance : Keeps (readInt8Array n) := by unfold readInt8Array; infer_instance
instance : Keeps (readInt16Array n) := by unfold readInt16Array; infer_instance
instance : Keeps (readInt32Array n) := by unfold readInt32Array; infer_instance
instance : Keeps (unpackFrom f n) := by unfold unpackFrom; infer_instance
instance {c : Prop} {r : Reader α} {d : α} [Decidable c] [Keeps r] : Keeps (readOr c r d) := by unfold readOr; infer_instance

/-! ## running -/

theorem HReader.bind_run (r : HReader α) (f : α → HReader β) (H : Heap) (s : ByteHandler) :
    (r >>= f) H s = (match r H s with | .error e => .error e | .ok (a, H', s') => f a H' s') := rfl

theorem Reader.bind_run (r : Reader α) (f : α → Reader β) (s : ByteHandler) :
    (r >>= f) s = (match r s with | .error e => .error e | .ok (a, s') => f a s') := rfl

theorem Own.nil {lo H} : Own lo H [] :=
  ⟨fun _ h => (nomatch h), List.nodup_nil, fun _ h => (nomatch h)⟩

theorem Own.extend {lo H Γ} (o : Own lo H Γ) (N : Heap) : Own lo (H ++ N) Γ :=
  ⟨fun e h => (o.rep e h).extend N, o.nodup, o.fresh⟩

/-! ## rules -/

theorem Sim.scalar {P ver Γ} {r : Reader β} [hr : Keeps r] {hk : β → HReader HVal} {k : β → Reader α} {tree : α → ObjTree}
    (h : ∀ b, Sim P ver Γ (hk b) (k b) tree) : Sim P ver Γ (lift r >>= hk) (r >>= k) tree := by
  intro N s hs o
  rw [HReader.bind_run, Reader.bind_run]
  unfold lift
  cases e : r s with
  | error e => exact rfl
  | ok p =>
    obtain ⟨b, s'⟩ := p
    exact h b N s' ((hr.keeps _ _ _ e).trans hs) o

theorem Sim.version {P ver Γ} {hk : Version → HReader HVal} {k : Version → Reader α} {tree : α → ObjTree}
    (h : Sim P ver Γ (hk ver) (k ver) tree) : Sim P ver Γ (lift getVersion >>= hk) (getVersion >>= k) tree := by
  intro N s hs o
  have := h N s hs o
  rw [HReader.bind_run, Reader.bind_run]
  change Post P ver tree (hk s.version (P ++ N) s) (k s.version s)
  rw [hs]; exact this

theorem Sim.popInt {P ver Γ} {vs : List Val} {hk : Int → List Val → HReader HVal} {k : Int → List Val → Reader α} {tree : α → ObjTree}
    (h : ∀ i vs, Sim P ver Γ (hk i vs) (k i vs) tree) : Sim P ver Γ (HReader.popInt vs hk) (Genie.popInt vs k) tree := by
  intro N s hs o
  cases vs with
  | nil => exact rfl
  | cons v vs => cases v with
    | int i => exact h i vs N s hs o
    | float _ => exact rfl

theorem Sim.popFloat {P ver Γ} {vs : List Val} {hk : PyFloat → List Val → HReader HVal} {k : PyFloat → List Val → Reader α} {tree : α → ObjTree}
    (h : ∀ i vs, Sim P ver Γ (hk i vs) (k i vs) tree) : Sim P ver Γ (HReader.popFloat vs hk) (Genie.popFloat vs k) tree := by
  intro N s hs o
  cases vs with
  | nil => exact rfl
  | cons v vs => cases v with
    | float i => exact h i vs N s hs o
    | int _ => exact rfl

theorem Sim.popDone {P ver Γ} {vs : List Val} {hk : HReader HVal} {k : Reader α} {tree : α → ObjTree}
    (h : Sim P ver Γ hk k tree) : Sim P ver Γ (HReader.popDone vs hk) (Genie.popDone vs k) tree := by
  intro N s hs o
  cases vs with
  | nil => exact h N s hs o
  | cons v vs => exact rfl

theorem Sim.ite {P ver Γ} {c : Prop} [Decidable c] {h1 h2 : HReader HVal} {k1 k2 : Reader α} {tree : α → ObjTree}
    (a : c → Sim P ver Γ h1 k1 tree) (b : ¬ c → Sim P ver Γ h2 k2 tree) :
    Sim P ver Γ (if c then h1 else h2) (if c then k1 else k2) tree := by
  by_cases h : c
  · rw [if_pos h, if_pos h]; exact a h
  · rw [if_neg h, if_neg h]; exact b h

theorem Own.push {P N N' : Heap} {Γ v t fp} (o : Own P.length (P ++ N) Γ) (r : Rep (P ++ N ++ N') v t fp) (nd : fp.Nodup)
    (fr : ∀ x ∈ fp, (P ++ N).length ≤ x) : Own P.length (P ++ N ++ N') (⟨v, t, fp⟩ :: Γ) := by
  refine ⟨?_, ?_, ?_⟩
  · intro e he
    rcases List.mem_cons.mp he with rfl | he
    · exact r
    · exact (o.rep e he).extend N'
  · change (fp ++ Local.all Γ).Nodup
    rw [List.nodup_append]
    refine ⟨nd, o.nodup, fun a ha b hb e => ?_⟩
    subst e
    have h1 := fr a ha
    obtain ⟨x, hx, hm⟩ := List.mem_flatMap.mp hb
    have h2 := (o.rep x hx).bound a hm
    omega
  · intro a ha
    rcases List.mem_append.mp (show a ∈ fp ++ Local.all Γ from ha) with h | h
    · have := fr a h
      simp only [List.length_append] at this
      omega
    · exact o.fresh a h

theorem Sim.object {P ver Γ} {hr : HReader HVal} {r : Reader β} {t : Version → β → ObjTree} {hk : HVal → HReader HVal} {k : β → Reader α}
    {tree : α → ObjTree} (hb : Builds hr r t) (h : ∀ v b fp, Sim P ver (⟨v, t ver b, fp⟩ :: Γ) (hk v) (k b) tree) :
    Sim P ver Γ (hr >>= hk) (r >>= k) tree := by
  intro N s hs o
  have hp := hb (P ++ N) ver [] s hs Own.nil
  rw [HReader.bind_run, Reader.bind_run]
  rw [List.append_nil] at hp
  cases e1 : hr (P ++ N) s with
  | error e =>
    cases e2 : r s with
    | error e' => rw [e1, e2] at hp; exact hp
    | ok p => rw [e1, e2] at hp; exact hp.elim
  | ok p =>
    obtain ⟨v, H, s1⟩ := p
    cases e2 : r s with
    | error e' => rw [e1, e2] at hp; exact hp.elim
    | ok p =>
      obtain ⟨b, s2⟩ := p
      rw [e1, e2] at hp
      obtain ⟨rfl, hv, N', fp, rfl, hrep, nd, fr⟩ := hp
      have := h v b fp (N ++ N') s1 hv (by rw [← List.append_assoc]; exact o.push hrep nd fr)
      simpa [List.append_assoc] using this

/-! ## consuming local variables -/

/-- `Γ` is `Γ'` and `e`. -/
inductive Remove (e : Local) : List Local → List Local → Prop
  | head {Γ} : Remove e (e :: Γ) Γ
  | tail {x Γ Γ'} : Remove e Γ Γ' → Remove e (x :: Γ) (x :: Γ')

/-- The attributes use up local variables, each once. -/
inductive AttrsFrom : List Local → List (PyStr × HVal) → List (PyStr × ObjTree) → List Local → Prop
  | nil {Γ} : AttrsFrom Γ [] [] Γ
  | int {Γ n i fs ts Γ'} : AttrsFrom Γ fs ts Γ' → AttrsFrom Γ ((n, .int i) :: fs) ((n, .int i) :: ts) Γ'
  | float {Γ n i fs ts Γ'} : AttrsFrom Γ fs ts Γ' → AttrsFrom Γ ((n, .float i) :: fs) ((n, .float i) :: ts) Γ'
  | str {Γ n i fs ts Γ'} : AttrsFrom Γ fs ts Γ' → AttrsFrom Γ ((n, .str i) :: fs) ((n, .str i) :: ts) Γ'
  | none {Γ n fs ts Γ'} : AttrsFrom Γ fs ts Γ' → AttrsFrom Γ ((n, .none) :: fs) ((n, .none) :: ts) Γ'
  | obj {Γ n v t fp fs ts Γ' Γ''} : Remove ⟨v, t, fp⟩ Γ Γ' → AttrsFrom Γ' fs ts Γ'' → AttrsFrom Γ ((n, v) :: fs) ((n, t) :: ts) Γ''

/-- The items use up local variables, each once. -/
inductive ItemsFrom : List Local → List HVal → List ObjTree → List Local → Prop
  | nil {Γ} : ItemsFrom Γ [] [] Γ
  | int {Γ i fs ts Γ'} : ItemsFrom Γ fs ts Γ' → ItemsFrom Γ (.int i :: fs) (.int i :: ts) Γ'
  | float {Γ i fs ts Γ'} : ItemsFrom Γ fs ts Γ' → ItemsFrom Γ (.float i :: fs) (.float i :: ts) Γ'
  | obj {Γ v t fp fs ts Γ' Γ''} : Remove ⟨v, t, fp⟩ Γ Γ' → ItemsFrom Γ' fs ts Γ'' → ItemsFrom Γ (v :: fs) (t :: ts) Γ''

theorem Remove.mem {e Γ Γ'} (h : Remove e Γ Γ') : ∀ x, x ∈ Γ ↔ x = e ∨ x ∈ Γ' := by
  induction h with
  | head => intro x; exact List.mem_cons
  | tail h ih =>
    intro x
    rw [List.mem_cons, ih, List.mem_cons]
    constructor
    · rintro (h | h | h) <;> simp [h]
    · rintro (h | h | h) <;> simp [h]

theorem Remove.perm {e Γ Γ'} (h : Remove e Γ Γ') : Γ.Perm (e :: Γ') := by
  induction h with
  | head => exact List.Perm.refl _
  | tail h ih => exact (List.Perm.cons _ ih).trans (List.Perm.swap _ _ _)

theorem Remove.perm_all {e Γ Γ'} (h : Remove e Γ Γ') : (Local.all Γ).Perm (e.fp ++ Local.all Γ') :=
  List.Perm.flatMap_right _ h.perm

theorem Own.remove {lo H e Γ Γ'} (o : Own lo H Γ) (h : Remove e Γ Γ') : Own lo H (e :: Γ') := by
  refine ⟨fun x hx => o.rep x ?_, ?_, fun a ha => o.fresh a ?_⟩
  · exact (h.mem x).mpr (List.mem_cons.mp hx)
  · exact h.perm_all.nodup_iff.mp o.nodup
  · exact h.perm_all.mem_iff.mpr ha

theorem AttrsFrom.rep {H : Heap} : ∀ {Γ fs ts Γ'}, AttrsFrom Γ fs ts Γ' → (∀ e ∈ Γ, Rep H e.v e.t e.fp) →
    ∃ fp, RepAttrs H fs ts fp ∧ (Local.all Γ).Perm (fp ++ Local.all Γ') ∧ ∀ e ∈ Γ', e ∈ Γ
  | _, _, _, _, .nil, _ => ⟨[], .nil, List.Perm.refl _, fun _ h => h⟩
  | _, _, _, _, .int h, o => let ⟨fp, r, p⟩ := h.rep o; ⟨fp, .cons (.int _) r, p⟩
  | _, _, _, _, .float h, o => let ⟨fp, r, p⟩ := h.rep o; ⟨fp, .cons (.float _) r, p⟩
  | _, _, _, _, .str h, o => let ⟨fp, r, p⟩ := h.rep o; ⟨fp, .cons (.str _) r, p⟩
  | _, _, _, _, .none h, o => let ⟨fp, r, p⟩ := h.rep o; ⟨fp, .cons .none r, p⟩
  | _, _, _, _, .obj rm h, o => by
    obtain ⟨fp, r, p, q⟩ := h.rep (fun e he => o e ((rm.mem e).mpr (.inr he)))
    refine ⟨_, .cons (o _ ((rm.mem _).mpr (.inl rfl))) r, ?_, fun e he => (rm.mem e).mpr (.inr (q e he))⟩
    refine rm.perm_all.trans ?_
    rw [List.append_assoc]
    exact List.Perm.append_left _ p

theorem ItemsFrom.rep {H : Heap} : ∀ {Γ fs ts Γ'}, ItemsFrom Γ fs ts Γ' → (∀ e ∈ Γ, Rep H e.v e.t e.fp) →
    ∃ fp, RepItems H fs ts fp ∧ (Local.all Γ).Perm (fp ++ Local.all Γ') ∧ ∀ e ∈ Γ', e ∈ Γ
  | _, _, _, _, .nil, _ => ⟨[], .nil, List.Perm.refl _, fun _ h => h⟩
  | _, _, _, _, .int h, o => let ⟨fp, r, p⟩ := h.rep o; ⟨fp, .cons (.int _) r, p⟩
  | _, _, _, _, .float h, o => let ⟨fp, r, p⟩ := h.rep o; ⟨fp, .cons (.float _) r, p⟩
  | _, _, _, _, .obj rm h, o => by
    obtain ⟨fp, r, p, q⟩ := h.rep (fun e he => o e ((rm.mem e).mpr (.inr he)))
    refine ⟨_, .cons (o _ ((rm.mem _).mpr (.inl rfl))) r, ?_, fun e he => (rm.mem e).mpr (.inr (q e he))⟩
    refine rm.perm_all.trans ?_
    rw [List.append_assoc]
    exact List.Perm.append_left _ p

theorem getElem?_alloc (H : Heap) (c : Cell) : (H ++ [c])[H.length]? = some c := by
  simp

/-- A new object made of some of the local variables. -/
theorem Own.alloc {P N : Heap} {Γ Γ' : List Local} {c : Cell} {t fp}
    (o : Own P.length (P ++ N) Γ) (r : Rep (P ++ N ++ [c]) (.ref (P ++ N).length) t ((P ++ N).length :: fp))
    (p : (Local.all Γ).Perm (fp ++ Local.all Γ')) (q : ∀ e ∈ Γ', e ∈ Γ) :
    Own P.length (P ++ N ++ [c]) (⟨.ref (P ++ N).length, t, (P ++ N).length :: fp⟩ :: Γ') := by
  refine ⟨?_, ?_, ?_⟩
  · intro e he
    rcases List.mem_cons.mp he with rfl | he
    · exact r
    · exact (o.rep e (q e he)).extend _
  · change ((P ++ N).length :: (fp ++ Local.all Γ')).Nodup
    rw [List.nodup_cons]
    refine ⟨fun h => ?_, p.nodup_iff.mp o.nodup⟩
    obtain ⟨x, hx, hm⟩ := List.mem_flatMap.mp (p.mem_iff.mpr h)
    exact Nat.lt_irrefl _ ((o.rep x hx).bound _ hm)
  · intro a ha
    rcases List.mem_cons.mp (show a ∈ (P ++ N).length :: (fp ++ Local.all Γ') from ha) with rfl | h
    · simp
    · exact o.fresh a (p.mem_iff.mpr h)

theorem Sim.allocAux {P ver Γ Γ'} {c : Cell} {u : ObjTree} {hk : HVal → HReader HVal} {k : Reader α} {tree : α → ObjTree}
    (a : ∀ H, (∀ e ∈ Γ, Rep H e.v e.t e.fp) → ∃ fp, Rep (H ++ [c]) (.ref H.length) u (H.length :: fp) ∧
      (Local.all Γ).Perm (fp ++ Local.all Γ') ∧ ∀ e ∈ Γ', e ∈ Γ)
    (h : ∀ v fp, Sim P ver (⟨v, u, fp⟩ :: Γ') (hk v) k tree) :
    Sim P ver Γ (alloc c >>= hk) k tree := by
  intro N s hs o
  obtain ⟨fp, r, p, q⟩ := a (P ++ N) o.rep
  have := h _ _ (N ++ [c]) s hs (by rw [← List.append_assoc]; exact o.alloc r p q)
  rw [← List.append_assoc] at this
  exact this

theorem Sim.allocObj {P ver Γ Γ'} {cls : PyStr} {fs ts} {hk : HVal → HReader HVal} {k : Reader α} {tree : α → ObjTree}
    (a : AttrsFrom Γ fs ts Γ') (h : ∀ v fp, Sim P ver (⟨v, .obj cls ts, fp⟩ :: Γ') (hk v) k tree) :
    Sim P ver Γ (alloc (.record cls fs) >>= hk) k tree :=
  Sim.allocAux (fun H o => by
    obtain ⟨fp, r, p⟩ := a.rep o
    exact ⟨fp, .obj (getElem?_alloc _ _) (r.extend _), p⟩) h

theorem Sim.allocList {P ver Γ Γ'} {fs ts} {hk : HVal → HReader HVal} {k : Reader α} {tree : α → ObjTree}
    (a : ItemsFrom Γ fs ts Γ') (h : ∀ v fp, Sim P ver (⟨v, .list ts, fp⟩ :: Γ') (hk v) k tree) :
    Sim P ver Γ (alloc (.list fs) >>= hk) k tree :=
  Sim.allocAux (fun H o => by
    obtain ⟨fp, r, p⟩ := a.rep o
    exact ⟨fp, .list (getElem?_alloc _ _) (r.extend _), p⟩) h

theorem Sim.allocTuple {P ver Γ Γ'} {fs ts} {hk : HVal → HReader HVal} {k : Reader α} {tree : α → ObjTree}
    (a : ItemsFrom Γ fs ts Γ') (h : ∀ v fp, Sim P ver (⟨v, .tuple ts, fp⟩ :: Γ') (hk v) k tree) :
    Sim P ver Γ (alloc (.tuple fs) >>= hk) k tree :=
  Sim.allocAux (fun H o => by
    obtain ⟨fp, r, p⟩ := a.rep o
    exact ⟨fp, .tuple (getElem?_alloc _ _) (r.extend _), p⟩) h

/-- Return a local variable. -/
theorem Sim.ret {P ver Γ Γ'} {v u fp} {a : α} {tree : α → ObjTree} (rm : Remove ⟨v, u, fp⟩ Γ Γ') (e : tree a = u) :
    Sim P ver Γ (pure v) (pure a) tree := by
  intro N s hs o
  have o' := o.remove rm
  refine ⟨rfl, hs, N, fp, rfl, ?_, ?_, ?_⟩
  · rw [e]; exact o'.rep _ List.mem_cons_self
  · exact (List.nodup_append.mp (show (fp ++ Local.all Γ').Nodup from o'.nodup)).1
  · exact fun x hx => o'.fresh x (List.mem_append_left _ hx)

theorem HReader.alloc_bind_pure (c : Cell) : alloc c = (alloc c >>= pure) := rfl

/-- Return a new instance. -/
theorem Sim.retObj {P ver Γ Γ'} {cls : PyStr} {fs ts} {a : α} {tree : α → ObjTree} (e : tree a = .obj cls ts)
    (h : AttrsFrom Γ fs ts Γ') : Sim P ver Γ (alloc (.record cls fs)) (pure a) tree := by
  rw [HReader.alloc_bind_pure]
  exact Sim.allocObj h fun _ _ => Sim.ret .head e

/-- Return a new tuple. -/
theorem Sim.retTuple {P ver Γ Γ'} {fs ts} {a : α} {tree : α → ObjTree} (e : tree a = .tuple ts)
    (h : ItemsFrom Γ fs ts Γ') : Sim P ver Γ (alloc (.tuple fs)) (pure a) tree := by
  rw [HReader.alloc_bind_pure]
  exact Sim.allocTuple h fun _ _ => Sim.ret .head e

end Genie
