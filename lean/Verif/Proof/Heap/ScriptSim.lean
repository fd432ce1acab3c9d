import Verif.Proof.Heap.ForestSim
import Verif.Props.C47_AnyObjects
/-! # Scripts with files in memory are scripts with files on values -/

namespace Genie
open HReader ObjTree

/-- `save` of an object depends on its value alone. -/
theorem Rep.written {H : Heap} {o : HVal} {t : ObjTree} {fp : List Nat} (r : Rep H o t fp) (depth : Nat) :
    W.toBytes H depth o .UNDEFINED = ObjTree.written depth t := by
  obtain ⟨v, N, fp', hr, r', _⟩ := new_run t [] (ByteHandler.new [])
  unfold ObjTree.written
  rw [hr]
  exact C47_value_decides H _ o v t fp fp' r r' depth _

def treeIsDatFile : ObjTree → Bool
  | .obj cls _ => decide (cls = lit "DatFile")
  | _ => false

theorem Rep.isDatFile {H : Heap} {o : HVal} {t : ObjTree} {fp : List Nat} (r : Rep H o t fp) :
    Genie.isDatFile H o = treeIsDatFile t := by
  cases r with
  | none => rfl
  | int => rfl
  | float => rfl
  | str => rfl
  | list hc _ => unfold Genie.isDatFile; dsimp only; rw [hc]; exact decide_eq_false (fun e => by injection e with e; nomatch e)
  | tuple hc _ => unfold Genie.isDatFile; dsimp only; rw [hc]; exact decide_eq_false (fun e => by injection e with e; nomatch e)
  | @obj a cls vs ts fp hc _ =>
    unfold Genie.isDatFile; dsimp only; rw [hc]
    show decide (some (Kind.instance cls) = some (.instance (lit "DatFile"))) = _
    congr 1
    simp

/-- One more tree, of new objects. -/
theorem Holds.load {H N : Heap} {names : List HVal} {F : Forest} {roots : List HVal} {fp : List Nat} (h : Holds ⟨H, names⟩ F roots fp)
    {o : HVal} {t : ObjTree} {fo : List Nat} (r : Rep (H ++ N) o t fo) (nd : fo.Nodup) (fr : ∀ a ∈ fo, H.length ≤ a) :
    Holds ⟨H ++ N, names⟩ { F with trees := F.trees ++ [t] } (roots ++ [o]) (fp ++ (fo ++ [])) ∧ Kept H (H ++ N) fp (fp ++ (fo ++ [])) := by
  obtain ⟨rs, own, hl, hn⟩ := h
  dsimp only at rs own hl hn
  have sm : ∀ b, b < H.length → (H ++ N)[b]? = H[b]? := fun b hb => List.getElem?_append_left hb
  refine ⟨⟨(rs.frame fun a ha => sm a (rs.bound a ha)).append (.cons r .nil), fun b hb => ?_, hl, fun k i q hq => ?_⟩, ?_, fun b hb _ => sm b hb,
    fun b hb => ?_⟩
  · dsimp only at hb
    simp only [List.append_nil, List.count_append]
    by_cases hbn : b < H.length
    · have hb' := (mutable_same sm hbn).1 hb
      have h0 : fo.count b = 0 := List.count_eq_zero.2 fun hm => by have := fr b hm; omega
      have := own b hb'
      omega
    · have h0 : fp.count b = 0 := List.count_eq_zero.2 fun hm => hbn (rs.bound b hm)
      rw [h0, Nat.zero_add]
      exact List.nodup_iff_count.1 nd b
  · obtain ⟨root0, b, k1, k2, k3⟩ := hn k i q hq
    obtain ⟨t0, f0, rr0, _⟩ := rs.item k1
    exact ⟨root0, b, by rw [List.getElem?_append_left (List.getElem?_eq_some_iff.1 k1).1]; exact k1, k2, by
      show Heap.follow (H ++ N) root0 q = _
      rw [follow_frame rr0 fun x hx => sm x (rr0.bound x hx)]; exact k3⟩
  · rw [List.length_append]; omega
  · simp only [List.append_nil, List.mem_append] at hb
    exact hb.imp id (fr b)

/-- An action in memory does what it means on values. -/
theorem Action.sim (z : Zlib) (env : Environment) (depth : Nat) {disk : FileSystem} {W : Memory} {F : Forest} {roots : List HVal} {fp : List Nat}
    (h : Holds W F roots fp) (a : Action) {r : Outcome Seen} {S' : Situation Forest} (hres : a.onForest z env depth ⟨disk, F⟩ = some (r, S')) :
    ∃ W' roots' fp', Situation.act z env depth ⟨disk, W⟩ a = (r, ⟨S'.disk, W'⟩) ∧ Holds W' S'.memory roots' fp' ∧
      Kept W.heap W'.heap fp fp' ∧ W.names <+: W'.names := by
  obtain ⟨H, names⟩ := W
  cases a with
  | op o =>
    have sim := Op.sim h depth (ByteHandler.new []) o
    unfold Action.onForest at hres
    unfold Situation.act
    dsimp only at hres ⊢
    cases e : o.onForest depth F with
    | none => rw [e] at hres; cases hres
    | some x =>
      obtain ⟨x, F'⟩ := x
      obtain ⟨roots', fp', h1, h2, h3, h4⟩ := sim _ _ e
      rw [e] at hres
      cases hm : Memory.op depth (ByteHandler.new []) ⟨H, names⟩ o with
      | mk y W' =>
        rw [hm] at h1 h2 h3 h4
        dsimp only at h1 h2 h3 h4
        subst h1
        cases y with
        | ok v =>
          cases hres
          exact ⟨_, _, _, rfl, h2, h3, h4⟩
        | error v =>
          cases hres
          exact ⟨_, _, _, rfl, h2, h3, h4⟩
  | parse p =>
    have main := C47_parse z disk p H
    unfold Action.onForest at hres
    unfold Situation.act
    dsimp only at hres ⊢
    cases e : DatFile.parse z disk p with
    | raised x =>
      rw [e] at hres main
      dsimp only at main
      rw [main]
      cases hres
      exact ⟨_, _, _, rfl, h, .refl _ _, List.prefix_rfl⟩
    | crashed => rw [e] at main; exact main.elim
    | returned d =>
      rw [e] at hres main
      obtain ⟨o, N, fo, hp, ro, nd, fr, _⟩ := main
      rw [hp]
      dsimp only at hres ⊢
      obtain ⟨w, k⟩ := h.load ro nd fr
      have hroot : (roots ++ [o])[F.trees.length]? = some o := by rw [← h.1.length]; simp
      obtain ⟨w1, w2, w3, w4⟩ := w.hand (p := []) hroot rfl
      have := Option.some.inj hres
      obtain ⟨rfl, rfl⟩ := Prod.mk.inj this
      exact ⟨_, _, _, by rw [w1], w2, by rw [w3]; exact k, w4⟩
  | save o p =>
    obtain ⟨v, fu, hv, ru⟩ : ∃ v fu, named names o = v ∧ Rep H v (F.value o) fu := by
      rcases h.cases o with ⟨e1, e2, e3⟩ | ⟨r, p, root, a, fu, e1, e2, e3, e4, e5, e6⟩
      · exact ⟨_, [], e2, by rw [e3]; exact .none⟩
      · exact ⟨_, fu, e2, e5⟩
    have hd := ru.isDatFile
    have hw := ru.written depth
    unfold Action.onForest at hres
    unfold Situation.act W.save
    dsimp only at hres ⊢
    rw [hv, hd, hw]
    clear hd hw ru
    cases e : F.value o with
    | obj cls ts =>
      rw [e] at hres
      unfold treeIsDatFile
      dsimp only at hres ⊢
      by_cases hc : cls = lit "DatFile"
      · rw [if_pos hc] at hres
        rw [if_pos (decide_eq_true hc)]
        cases e2 : ObjTree.written depth (.obj cls ts) with
        | error x =>
          rw [e2] at hres
          cases hres
          exact ⟨_, _, _, rfl, h, .refl _ _, List.prefix_rfl⟩
        | ok bs =>
          rw [e2] at hres
          dsimp only at hres ⊢
          cases e3 : writeBytes env disk p (z.compress bs) with
          | mk disk' y =>
            rw [e3] at hres
            cases y <;> cases hres <;> exact ⟨_, _, _, rfl, h, .refl _ _, List.prefix_rfl⟩
      · rw [if_neg hc] at hres
        rw [if_neg (by simpa using hc)]
        cases hres
        exact ⟨_, _, _, rfl, h, .refl _ _, List.prefix_rfl⟩
    | _ =>
      rw [e] at hres
      cases hres
      exact ⟨_, _, _, rfl, h, .refl _ _, List.prefix_rfl⟩

theorem Script.sim (P : Script σ α) (z : Zlib) (env : Nat → Environment) (depth : Nat) (H0 : Heap) (names0 : List HVal) (fp0 : List Nat)
    (s : Status σ Memory) (f : Status σ Forest) (h : Agrees H0 names0 fp0 s f) (n : Nat) (out : Status σ Forest)
    (hres : P.runF z env depth n f = some out) : Agrees H0 names0 fp0 (P.run z env depth n s) out := by
  induction n generalizing out with
  | zero => cases hres; exact h
  | succ n ih =>
    unfold Script.runF at hres
    cases e : P.runF z env depth n f with
    | none => rw [e] at hres; cases hres
    | some mid =>
      rw [e] at hres
      dsimp only at hres
      have hm := ih mid e
      show Agrees H0 names0 fp0 (P.step z (env n) depth (P.run z env depth n s)) out
      generalize P.run z env depth n s = s' at hm
      cases s' with
      | crashed disk =>
        cases mid with
        | crashed disk' => cases hres; exact hm
        | running st S => exact hm.elim
      | running st S =>
        cases mid with
        | crashed disk' => exact hm.elim
        | running st' S' =>
          obtain ⟨rfl, hd, ⟨roots, fp, hh, hk⟩, hp⟩ := hm
          obtain ⟨disk, W⟩ := S
          obtain ⟨disk', F⟩ := S'
          dsimp only at hd hh hk hp
          subst hd
          unfold Script.stepF at hres
          unfold Script.step
          dsimp only at hres ⊢
          cases e1 : P st with
          | stop r =>
            rw [e1] at hres
            cases hres
            exact ⟨rfl, rfl, ⟨roots, fp, hh, hk⟩, hp⟩
          | call a next =>
            rw [e1] at hres
            dsimp only at hres ⊢
            cases e2 : a.onForest z (env n) depth ⟨disk, F⟩ with
            | none => rw [e2] at hres; cases hres
            | some x =>
              obtain ⟨r, S''⟩ := x
              obtain ⟨W', roots', fp', k1, k2, k3, k4⟩ := a.sim z (env n) depth hh e2
              rw [e2] at hres
              rw [k1]
              cases r with
              | returned v => cases hres; exact ⟨rfl, rfl, ⟨_, _, k2, hk.trans k3⟩, hp.trans k4⟩
              | raised v => cases hres; exact ⟨rfl, rfl, ⟨_, _, k2, hk.trans k3⟩, hp.trans k4⟩
              | crashed => cases hres; exact rfl

/-- A program in memory does what it means on values. -/
theorem Prog.sim (z : Zlib) (env : Nat → Environment) (depth : Nat) (p : Prog α) : ∀ (i : Nat) (disk : FileSystem) (W : Memory) (F : Forest)
    (roots : List HVal) (fp : List Nat), Holds W F roots fp → ∀ (r : Outcome α) (j : Nat) (S' : Situation Forest),
    p.onForest z env depth i ⟨disk, F⟩ = some (r, j, S') →
    ∃ W' roots' fp', p.exec z env depth i ⟨disk, W⟩ = (r, j, ⟨S'.disk, W'⟩) ∧ Holds W' S'.memory roots' fp' ∧
      Kept W.heap W'.heap fp fp' ∧ W.names <+: W'.names := by
  induction p with
  | done a => rintro i disk W F roots fp h r j S' hres; cases hres; exact ⟨_, _, _, rfl, h, .refl _ _, List.prefix_rfl⟩
  | raised a => rintro i disk W F roots fp h r j S' hres; cases hres; exact ⟨_, _, _, rfl, h, .refl _ _, List.prefix_rfl⟩
  | act a next handler ih1 ih2 =>
    intro i disk W F roots fp h r j S' hres
    unfold Prog.onForest at hres
    unfold Prog.exec
    cases e : a.onForest z (env i) depth ⟨disk, F⟩ with
    | none => rw [e] at hres; cases hres
    | some x =>
      obtain ⟨y, S1⟩ := x
      rw [e] at hres
      obtain ⟨W1, roots1, fp1, k1, k2, k3, k4⟩ := a.sim z (env i) depth h e
      rw [k1]
      cases y with
      | returned v =>
        obtain ⟨W', roots', fp', l1, l2, l3, l4⟩ := ih1 v (i + 1) S1.disk W1 S1.memory roots1 fp1 k2 r j S' hres
        exact ⟨W', roots', fp', l1, l2, k3.trans l3, k4.trans l4⟩
      | raised v =>
        obtain ⟨W', roots', fp', l1, l2, l3, l4⟩ := ih2 v (i + 1) S1.disk W1 S1.memory roots1 fp1 k2 r j S' hres
        exact ⟨W', roots', fp', l1, l2, k3.trans l3, k4.trans l4⟩
      | crashed =>
        cases hres
        exact ⟨_, _, _, rfl, k2, k3, k4⟩

theorem Prog.onForest_act (z : Zlib) (env : Nat → Environment) (depth : Nat) (a : Action) (next : Seen → Prog α) (handler : PyErr → Prog α) (i : Nat)
    (S : Situation Forest) : (Prog.act a next handler).onForest z env depth i S =
      match a.onForest z (env i) depth S with
      | Option.none => Option.none
      | some (.returned v, S') => (next v).onForest z env depth (i + 1) S'
      | some (.raised e, S') => (handler e).onForest z env depth (i + 1) S'
      | some (.crashed, S') => some (.crashed, i + 1, S') := by rw [Prog.onForest]; rfl

/-- Two programs one after the other. -/
theorem Prog.onForest_bind (z : Zlib) (env : Nat → Environment) (depth : Nat) (p : Prog α) (f : α → Prog β) : ∀ (i : Nat) (S : Situation Forest),
    (p.bind f).onForest z env depth i S =
      match p.onForest z env depth i S with
      | Option.none => none
      | some (.returned a, j, S') => (f a).onForest z env depth j S'
      | some (.raised e, j, S') => some (.raised e, j, S')
      | some (.crashed, j, S') => some (.crashed, j, S') := by
  induction p with
  | done a => intro i S; rfl
  | raised e => intro i S; rfl
  | act a next handler ih1 ih2 =>
    intro i S
    show (Prog.act a (fun v => (next v).bind f) fun e => (handler e).bind f).onForest z env depth i S = _
    rw [Prog.onForest_act, Prog.onForest_act]
    cases a.onForest z (env i) depth S with
    | none => rfl
    | some x =>
      obtain ⟨y, S1⟩ := x
      cases y with
      | returned v => dsimp only; exact ih1 v (i + 1) S1
      | raised v => dsimp only; exact ih2 v (i + 1) S1
      | crashed => rfl

/-- A program is a script that ends. -/
theorem Prog.run_exec (z : Zlib) (env : Nat → Environment) (depth : Nat) (p : Prog α) : ∀ (i : Nat) (S0 : Situation Memory) (start : Status (Prog α) Memory)
    , Script.run Prog.script z env depth i start = .running p S0 →
    match p.exec z env depth i S0 with
    | (.returned a, j, S) => i ≤ j ∧ Script.run Prog.script z env depth j start = .running (.done a) S
    | (.raised e, j, S) => i ≤ j ∧ Script.run Prog.script z env depth j start = .running (.raised e) S
    | (.crashed, j, S) => i ≤ j ∧ Script.run Prog.script z env depth j start = .crashed S.disk := by
  induction p with
  | done a => intro i S0 start h; exact ⟨Nat.le_refl _, h⟩
  | raised a => intro i S0 start h; exact ⟨Nat.le_refl _, h⟩
  | act a next handler ih1 ih2 =>
    intro i S0 start h
    have hs : Script.run Prog.script z env depth (i + 1) start = Prog.script.step z (env i) depth (.running (.act a next handler) S0) := by
      show Prog.script.step z (env i) depth (Script.run Prog.script z env depth i start) = _
      rw [h]
    unfold Prog.exec
    unfold Script.step at hs
    simp only [Prog.script] at hs
    cases e : Situation.act z (env i) depth S0 a with
    | mk y S1 =>
      rw [e] at hs
      cases y with
      | returned v =>
        have := ih1 v (i + 1) S1 start hs
        dsimp only at this ⊢
        generalize (next v).exec z env depth (i + 1) S1 = x at this
        obtain ⟨x, j, S⟩ := x
        cases x <;> exact ⟨by have := this.1; omega, this.2⟩
      | raised v =>
        have := ih2 v (i + 1) S1 start hs
        dsimp only at this ⊢
        generalize (handler v).exec z env depth (i + 1) S1 = x at this
        obtain ⟨x, j, S⟩ := x
        cases x <;> exact ⟨by have := this.1; omega, this.2⟩
      | crashed => exact ⟨Nat.le_succ _, hs⟩

end Genie
