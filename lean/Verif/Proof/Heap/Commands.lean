import Verif.Proof.Heap.Twin
import Verif.Spec.Copies
/-! # Programs with copies and shared objects -/

namespace Genie
open HReader ObjTree

theorem Rep.mutable_iff {H : Heap} {a : Nat} {t f} (r : Rep H (.ref a) t f) : H.Mutable a ↔ ∀ ts, t ≠ .tuple ts := by
  cases r with
  | list h rs => exact ⟨fun _ _ e => (nomatch e), fun _ => ⟨_, h, fun _ e => (nomatch e)⟩⟩
  | obj h rs => exact ⟨fun _ _ e => (nomatch e), fun _ => ⟨_, h, fun _ e => (nomatch e)⟩⟩
  | tuple h rs =>
    refine ⟨fun ⟨c, hc, hn⟩ => ?_, fun hn => absurd rfl (hn _)⟩
    rw [h] at hc
    cases hc
    exact absurd rfl (hn _)

mutual
theorem Rep.immutable {H : Heap} : ∀ {v t fp}, Rep H v t fp → t.Immutable → ∀ b ∈ fp, ¬ H.Mutable b
  | _, _, _, .none, _, _, m => nomatch m
  | _, _, _, .int _, _, _, m => nomatch m
  | _, _, _, .float _, _, _, m => nomatch m
  | _, _, _, .str _, _, _, m => nomatch m
  | _, _, _, .list _ _, i, _, _ => nomatch i
  | _, _, _, .obj _ _, i, _, _ => nomatch i
  | _, _, _, .tuple (a := a) h rs, i, b, m => by
    cases i with
    | tuple i =>
      rcases List.mem_cons.1 m with e | m
      · subst e
        rintro ⟨c, hc, hn⟩
        rw [h] at hc
        cases hc
        exact hn _ rfl
      · exact rs.immutable i b m
theorem RepItems.immutable {H : Heap} : ∀ {v t fp}, RepItems H v t fp → ImmutableItems t → ∀ b ∈ fp, ¬ H.Mutable b
  | _, _, _, .nil, _, _, m => nomatch m
  | _, _, _, .cons r rs, i, b, m => by
    cases i with
    | cons i is =>
      rcases List.mem_append.1 m with m | m
      · exact r.immutable i b m
      · exact rs.immutable is b m
end

/-- The place of an object that exists. -/
theorem Rep.at_place {H : Heap} {v t fp p u} (r : Rep H v t fp) (h : t.eval p = .ok u) :
    ∃ w f A B, H.follow v p = some w ∧ Rep H w u f ∧ fp = A ++ f ++ B ∧
      ∀ H' u' f', Rep H' w u' f' → (∀ x, x ∈ A ∨ x ∈ B → H'[x]? = H[x]?) → Rep H' v (t.put p u') (A ++ f' ++ B) := by
  obtain ⟨w, hw, hole⟩ := r.get (eval_get.1 h)
  obtain ⟨f, A, B, h1, h2, h3⟩ := hole.hole
  exact ⟨w, f, A, B, hw, h1, h2, h3⟩

theorem follow_frame {H H' : Heap} {v t fp} (r : Rep H v t fp) (hs : ∀ a ∈ fp, H'[a]? = H[a]?) (p : ObjPath) : H'.follow v p = H.follow v p := by
  have := Rep.twin (κ := id) (p := p) r (by rw [List.map_id]; exact r.frame hs)
  rw [this]
  cases H.follow v p with
  | none => rfl
  | some w => cases w <;> rfl

/-- The value of a right-hand side has been made. -/
structure Made (H : Heap) (fp : List Nat) (H1 : Heap) (v : HVal) (u : ObjTree) (fpv : List Nat) : Prop where
  len : H.length ≤ H1.length
  same : ∀ a, a < H.length → H1[a]? = H[a]?
  rep : Rep H1 v u fpv
  within : ∀ b ∈ fpv, b ∈ fp ∨ H.length ≤ b
  own : Owned H fp → Owned H1 fpv

theorem mutable_same {H H1 : Heap} (hs : ∀ a, a < H.length → H1[a]? = H[a]?) {b : Nat} (hb : b < H.length) : H1.Mutable b ↔ H.Mutable b := by
  unfold Heap.Mutable; rw [hs b hb]

theorem Source.run_ok {H : Heap} {data t fp} (r : Rep H data t fp) (src : Source) (depth : Nat) (s : ByteHandler) {u} (h : src.onTree depth t = .ok u) :
    ∃ H1 v fpv, src.eval depth data H s = .ok (v, H1, s) ∧ Made H fp H1 v u fpv ∧
      ((∀ p, src ≠ .share p) → ∀ b ∈ fpv, H1.Mutable b → H.length ≤ b) ∧ (∀ p, src = .share p → H1 = H ∧ H.follow data p = some v) := by
  cases src with
  | new value =>
    have h := Except.ok.inj h
    subst h
    obtain ⟨v, N, fpv, hn, rv, nd, fr⟩ := new_run value H s
    refine ⟨H ++ N, v, fpv, hn, ⟨by simp, fun a ha => List.getElem?_append_left ha, rv, fun b hb => .inr (fr b hb), fun _ a _ => ?_⟩,
      fun _ b hb _ => fr b hb, fun _ e => nomatch e⟩
    exact List.nodup_iff_count.1 nd a
  | share p =>
    obtain ⟨w, f, A, B, h1, h2, h3, _⟩ := r.at_place h
    refine ⟨H, w, f, Rep.eval_ok h1 s, ⟨Nat.le_refl _, fun _ _ => rfl, h2, fun b hb => .inl (by rw [h3]; simp [hb]), fun o a m => ?_⟩,
      fun hn => absurd rfl (hn p), fun q e => ?_⟩
    · have := o a m
      rw [h3] at this
      simp only [List.count_append] at this
      omega
    · cases e; exact ⟨rfl, h1⟩
  | copy p =>
    simp only [Source.onTree] at h
    cases e : t.eval p with
    | error x => rw [e] at h; cases h
    | ok w =>
      rw [e] at h
      dsimp only at h
      by_cases hd : w.height ≤ depth
      · rw [if_pos hd] at h
        cases h
        obtain ⟨o, f, A, B, h1, h2, h3, _⟩ := r.at_place e
        rcases deepcopy_run h2 depth s with ⟨_, l⟩ | ⟨H1, M, v, κ, e1, l1, l2, l3, l4, l5, l6, l7⟩
        · omega
        · refine ⟨H1, v, f.map κ, ?_, ⟨l1, l2, l3, fun b hb => ?_, fun ow a m => ?_⟩, fun _ b hb m => ?_, fun _ e => nomatch e⟩
          · show (HReader.eval data p >>= fun o => deepcopy depth o [] >>= fun x => pure x.1) H s = _
            rw [HReader.bind_ok (Rep.eval_ok h1 s), HReader.bind_ok e1]; rfl
          · obtain ⟨x, hx, rfl⟩ := List.mem_map.1 hb
            rcases l6 x hx with h | h
            · rw [h]; exact .inl (by rw [h3]; simp [hx])
            · exact .inr h
          · by_cases hm : a ∈ f.map κ
            · obtain ⟨x, hx, rfl⟩ := List.mem_map.1 hm
              rw [count_map_inj fun y hy he => l4 y hy x hx he]
              obtain ⟨tx, fx, rx, _, _⟩ := h2.within x hx
              have mx : H.Mutable x := rx.mutable_iff.2 ((l7 x hx tx fx rx).mutable_iff.1 m)
              have := ow x mx
              rw [h3] at this
              simp only [List.count_append] at this
              omega
            · rw [List.count_eq_zero.2 hm]; omega
          · obtain ⟨x, hx, rfl⟩ := List.mem_map.1 hb
            obtain ⟨tx, fx, rx, _, _⟩ := h2.within x hx
            exact l5 x hx (rx.mutable_iff.2 ((l7 x hx tx fx rx).mutable_iff.1 m))
      · rw [if_neg hd] at h; cases h

/-- A right-hand side that raises. -/
theorem Source.run_error {H : Heap} {data t fp} (r : Rep H data t fp) (src : Source) (depth : Nat) (s : ByteHandler) {e}
    (own : e = .recursionError → Owned H fp) (h : src.onTree depth t = .error e) : src.eval depth data H s = .error e := by
  cases src with
  | new value => cases h
  | share p => exact Rep.eval_error r h s
  | copy p =>
    simp only [Source.onTree] at h
    show (HReader.eval data p >>= fun o => deepcopy depth o [] >>= fun x => pure x.1) H s = _
    cases e1 : t.eval p with
    | error x =>
      rw [e1] at h
      cases h
      exact HReader.bind_error (Rep.eval_error r e1 s)
    | ok w =>
      rw [e1] at h
      dsimp only at h
      by_cases hd : w.height ≤ depth
      · rw [if_pos hd] at h; cases h
      · rw [if_neg hd] at h
        cases h
        obtain ⟨o, f, A, B, h1, h2, h3, _⟩ := r.at_place e1
        have ow : Owned H f := fun a m => by
          have := own rfl a m
          rw [h3] at this
          simp only [List.count_append] at this
          omega
        rw [HReader.bind_ok (Rep.eval_ok h1 s), HReader.bind_error (deepcopy_deep h2 ow depth s (by omega))]

/-- One statement where nothing changeable is shared. -/
theorem Command.run_own {H : Heap} {data t fp} (r : Rep H data t fp) (own : Owned H fp) (c : Command) (depth : Nat) (s : ByteHandler)
    (sep : ∀ p u, c.source = .share p → t.eval p = .ok u → u.Immutable) :
    match c.onTree depth t with
    | .ok t' => ∃ H' fp', c.run depth data H s = .ok ((), H', s) ∧ Rep H' data t' fp' ∧ Owned H' fp' ∧ H.length ≤ H'.length ∧
        (∀ a, a < H.length → a ∉ fp ∨ ¬ H.Mutable a → H'[a]? = H[a]?) ∧ (∀ a ∈ fp', a ∈ fp ∨ H.length ≤ a) ∧
        ∀ b, b < H.length → H.follow data c.place ≠ some (.ref b) → H'[b]? = H[b]?
    | .error e => c.run depth data H s = .error e := by
  unfold Command.onTree Command.run
  cases hs : c.source.onTree depth t with
  | error e => exact HReader.bind_error (Source.run_error r _ depth s (fun _ => own) hs)
  | ok u =>
    dsimp only
    obtain ⟨H1, v, fpv, h1, made, fresh, shared⟩ := Source.run_ok r c.source depth s hs
    rw [HReader.bind_ok h1]
    have r1 : Rep H1 data t fp := r.frame fun a ha => made.same a (r.bound a ha)
    cases hp : t.eval c.place with
    | error e => exact HReader.bind_error (Rep.eval_error r1 hp s)
    | ok x =>
      dsimp only
      obtain ⟨o, fo, A, B, h2, ro, ef, plug⟩ := r1.at_place hp
      rw [HReader.bind_ok (Rep.eval_ok h2 s)]
      -- what is changeable in the value is new
      have new : ∀ b ∈ fpv, H1.Mutable b → H.length ≤ b := by
        by_cases hsh : ∃ p, c.source = .share p
        · obtain ⟨p, hp'⟩ := hsh
          intro b hb m
          have im : u.Immutable := sep p u hp' (by rw [hp'] at hs; exact hs)
          exact absurd m (made.rep.immutable im b hb)
        · exact fresh fun p e => hsh ⟨p, e⟩
      have lts : ∀ b ∈ fp, b < H.length := r.bound
      have nin : ∀ a, H1.Mutable a → a ∈ fp → a ∉ fpv := fun a m ha hb => by
        have := new a hb m
        have := lts a ha
        omega
      have mem_fo : ∀ a, a ∈ fo → a ∈ fp := fun a ha => by rw [ef]; simp [ha]
      by_cases ho : ∃ a, o = .ref a ∧ a ∈ fpv
      · -- the target is inside the value: it is no list and no instance
        obtain ⟨a, rfl, ha⟩ := ho
        have hx : ∃ ts, x = .tuple ts := by
          refine Classical.byContradiction fun hn => ?_
          exact nin a (ro.mutable_iff.2 fun ts e => hn ⟨ts, e⟩) (mem_fo a ro.head_mem) ha
        obtain ⟨ts, rfl⟩ := hx
        obtain ⟨_, vs, fps, e, rfl, hc, rs⟩ := ro.tuple_inv
        cases e
        cases c.stmt with
        | setAttr n => simp only [Stmt.onTree, withAttr, Stmt.run]; unfold HReader.setAttr; rw [HReader.bind_ok (Genie.cell_run hc _ s)]; rfl
        | setItem n => simp only [Stmt.onTree, withItem, Stmt.run]; unfold HReader.setItem; rw [HReader.bind_ok (Genie.cell_run hc _ s)]; rfl
        | append => simp only [Stmt.onTree, withAppended, Stmt.run]; unfold HReader.append; rw [HReader.bind_ok (Genie.cell_run hc _ s)]; rfl
        | pop => simp only [Stmt.onTree, withoutLast, Stmt.run]; unfold HReader.pop; rw [HReader.bind_ok (Genie.cell_run hc _ s)]; rfl
        | insert i => simp only [Stmt.onTree, withInserted, Stmt.run]; unfold HReader.insert; rw [HReader.bind_ok (Genie.cell_run hc _ s)]; rfl
        | delItem i => simp only [Stmt.onTree, withoutItem, Stmt.run]; unfold HReader.delItem; rw [HReader.bind_ok (Genie.cell_run hc _ s)]; rfl
        | delSlice i j => simp only [Stmt.onTree, withoutSlice, Stmt.run]; unfold HReader.delSlice; rw [HReader.bind_ok (Genie.cell_run hc _ s)]; rfl
      · have loc := Stmt.run_local ro made.rep (fun a e ha => ho ⟨a, e, ha⟩) c.stmt s
        cases hst : c.stmt.onTree u x with
        | error e => rw [hst] at loc; exact loc
        | ok x' =>
          rw [hst] at loc
          obtain ⟨a, cl, fo', rfl, h3, h4, h5, h6, h7⟩ := loc
          have lta : a < H.length := lts a (mem_fo a ro.head_mem)
          have mut1 : H.Mutable a := (mutable_same made.same lta).1 h6
          have cnt := own a mut1
          have one : fo.count a = 1 := by
            obtain ⟨fps, e, na⟩ := ro.acyclic
            rw [e, List.count_cons_self, List.count_eq_zero.2 na]
          rw [ef] at cnt
          simp only [List.count_append] at cnt
          have nA : a ∉ A := List.count_eq_zero.1 (by omega)
          have nB : a ∉ B := List.count_eq_zero.1 (by omega)
          have lens : H.length ≤ H1.length := made.len
          refine ⟨H1.set a cl, A ++ fo' ++ B, h3, ?_, ?_, ?_, ?_, ?_, ?_⟩
          · refine plug _ x' fo' h4 fun y hy => List.getElem?_set_ne ?_
            rintro rfl
            exact hy.elim nA nB
          · intro b mb
            have mb1 : H1.Mutable b := by
              by_cases e : a = b
              · subst e; exact h6
              · obtain ⟨c', hc', hn'⟩ := mb
                rw [List.getElem?_set_ne e] at hc'
                exact ⟨c', hc', hn'⟩
            have h5b := h5 b
            have tot : (A ++ fo' ++ B).count b ≤ fp.count b + fpv.count b := by
              rw [ef]; simp only [List.count_append]; omega
            by_cases hb : b ∈ fpv
            · have hnew := new b hb mb1
              have : fp.count b = 0 := List.count_eq_zero.2 fun hm => by have := lts b hm; omega
              have := made.own own b mb1
              omega
            · have h0 : fpv.count b = 0 := List.count_eq_zero.2 hb
              by_cases hbf : b ∈ fp
              · have := own b ((mutable_same made.same (lts b hbf)).1 mb1)
                omega
              · have := List.count_eq_zero.2 hbf
                omega
          · rw [List.length_set]; exact lens
          · intro b hb hnb
            rw [List.getElem?_set_ne (by rintro rfl; exact hnb.elim (fun h => h (mem_fo a ro.head_mem)) (fun h => h mut1))]
            exact made.same b hb
          · intro b hb
            have hb' : b ∈ A ++ fo ++ B ∨ b ∈ fpv := by
              by_cases hv : b ∈ fpv
              · exact .inr hv
              · have := h5 b
                rw [List.count_eq_zero.2 hv] at this
                rcases List.mem_append.1 hb with h | h
                · rcases List.mem_append.1 h with h | h
                  · exact .inl (by simp [h])
                  · have := List.count_pos_iff.2 h
                    exact .inl (by simp [List.count_pos_iff.1 (show 0 < fo.count b by omega)])
                · exact .inl (by simp [h])
            rcases hb' with h | h
            · exact .inl (by rw [ef]; exact h)
            · exact made.within b h
          · intro b hb hne
            have hab : a ≠ b := by
              rintro rfl
              rw [follow_frame r fun x hx => made.same x (r.bound x hx)] at h2
              exact hne h2
            rw [List.getElem?_set_ne hab]; exact made.same b hb

end Genie
