import Verif.Proof.Settle
import Verif.Props.C36_C37_Errors
/-!
# C20, C21, C35: saving as another version

A user changes the version of a file by assigning to the attribute `version` of the object and saving it:
`{ d with version := w.value }`.  `d.asVersion w` (in `Verif/Spec/Convert.lean`) says what is left of the data.
-/

namespace Genie

/-- Saving `d` as version `w` and loading the result gives `d'`. -/
def ConvertsTo (w : Version) (d d' : DatFile) : Prop :=
  ∃ bs, DatFile.toBytes { d with version := w.value } = .ok bs ∧
    ∃ h', DatFile.fromBytes (ByteHandler.new bs) = .ok (d', h') ∧ h'.offset = bs.length ∧ h'.version = w

/-! ## All versions -/

/-- What version `w` has no room for does not matter: the bytes are the same as without it.  (For any object, however edited.) -/
theorem C21_same_bytes (w : Version) (d : DatFile) (bs : Bytes) :
    DatFile.toBytes { d with version := w.value } = .ok bs ↔ DatFile.toBytes (d.asVersion w) = .ok bs := by
  have h1 := DatFile.writesAt (v := w) (x := { d with version := w.value }) (C17_lookup w)
  have h2 := DatFile.writesAt (v := w) (x := d.asVersion w) (C17_lookup w)
  rw [DatFile.layoutAt_asVersion] at h2
  constructor
  · intro h
    obtain ⟨h3, rfl⟩ := h1.ok _ h
    exact h2.ok_of h3
  · intro h
    obtain ⟨h3, rfl⟩ := h2.ok _ h
    exact h1.ok_of h3

/-- If what is left is well-formed in version `w`, saving succeeds and loading gives what is left. -/
theorem C21_converts (w : Version) (d : DatFile) (h : DatFile.WFAt w (d.asVersion w)) : ConvertsTo w d (d.asVersion w) := by
  obtain ⟨bs, h1, h2⟩ := C12_datfile_round_trip w _ h
  have h3 := h2 [] [] .UNDEFINED false
  simp only [List.nil_append, List.append_nil, List.length_nil, Nat.zero_add] at h3
  exact ⟨bs, (C21_same_bytes w d bs).2 h1, _, h3, rfl, rfl⟩

/-- A well-formed file of any version can be saved as any other version, unless a creatable has no train location, or (before
7.8) a bird has not exactly three drop sites. -/
theorem C21_any_version (v w : Version) (d : DatFile) (hd : DatFile.WFAt v d) (hw : w ≠ .UNDEFINED) (hs : d.DropSitesFit w)
    (hh : ¬ d.Homeless w) : ConvertsTo w d (d.asVersion w) := C21_converts w d (DatFile.wf_asVersion w hd hw hs hh)

/-- Creatables before 8.8 have a train location. -/
theorem not_homeless_of_old {v w : Version} {d : DatFile} (hd : DatFile.WFAt v d) (hv : v.num < 88) : ¬ d.Homeless w := by
  rintro ⟨c, hc, u, hu, -, -, cr, hcr, -, he⟩
  have h1 := ((hd.civs.2 c hc).units.2 _ hu u rfl).creatable.2 cr hcr
  obtain ⟨t, ht, -⟩ := h1.train_locations.of_lt' (Nat.not_le_of_lt hv)
  rw [he] at ht
  cases ht

theorem not_homeless_of_new {w : Version} {d : DatFile} (hw : 88 ≤ w.num) : ¬ d.Homeless w := by
  rintro ⟨c, hc, u, hu, -, -, cr, hcr, h, -⟩
  omega

theorem dropSites_of_new {w : Version} {d : DatFile} (hw : 78 ≤ w.num) : d.DropSitesFit w :=
  fun _ _ _ _ h => absurd h (by omega)

/-! ## Maps that change nothing -/

theorem map_eq_self {f : α → α} {l : List α} (h : ∀ x ∈ l, f x = x) : l.map f = l := by
  conv => rhs; rw [← List.map_id l]
  exact List.map_congr_left h

theorem omap_eq_self {f : α → α} {o : Option α} (h : ∀ x, o = some x → f x = x) : o.map f = o := by
  cases o with
  | none => rfl
  | some a => rw [Option.map_some, h a rfl]

theorem Task.asVersion_old {v w : Version} {x : Task} (h : Task.WF v x) (hv : v.num < 88) : x.asVersion w = x := by
  unfold Task.asVersion
  split
  · rfl
  · rw [← h.enabled.of_lt' (Nat.not_le_of_lt hv)]

theorem UnitHeaders.asVersion_old {v w : Version} {x : UnitHeaders} (h : UnitHeaders.WF v x) (hv : v.num < 88) : x.asVersion w = x := by
  unfold UnitHeaders.asVersion
  rw [omap_eq_self fun l hl => map_eq_self fun t ht => Task.asVersion_old ((h.task_list.2 l hl).2 t ht) hv]

theorem Bird.asVersion_old {v w : Version} {x : Bird} (h : Bird.WF v x) (hv : v.num < 88) : x.asVersion w = x := by
  unfold Bird.asVersion
  rw [map_eq_self fun t ht => Task.asVersion_old (h.tasks.2 t ht) hv]

theorem Type50.asVersion_old {v w : Version} {x : Type50} (h : Type50.WF v x) (hv : v.num < 84 ∨ 84 ≤ w.num) : x.asVersion w = x := by
  unfold Type50.asVersion
  split
  · rfl
  · have hv' : ¬ 84 ≤ v.num := by omega
    rw [← h.damage_reflection.of_lt' hv', ← h.interrupt_frame.of_lt' hv', ← h.friendly_fire_damage.of_lt' hv']
    have e1 := h.damage_reflection.of_lt' hv'
    have e2 := h.interrupt_frame.of_lt' hv'
    have e3 := h.garrison_firepower.of_lt' hv'
    have e4 := h.attack_graphic_2.of_lt' hv'
    cases x
    dsimp only at *
    rw [e1, e2, e3, e4]

theorem Creatable.asVersion_old {v w : Version} {hk : Int} {x : Creatable} (h : Creatable.WFWith v hk x) (hv : v.num < 84 ∨ 84 ≤ w.num)
    (hv' : v.num < 88) : x.asVersion w hk = x := by
  have e0 : (if 88 ≤ w.num then x.train_locations else (x.train_locations.take 1).map fun t => { t with hot_key_id := hk }) = x.train_locations := by
    split
    · rfl
    · obtain ⟨t, ht, -, -, -, h4⟩ := h.train_locations.of_lt' (Nat.not_le_of_lt hv')
      rw [ht, ← h4]
      rfl
  unfold Creatable.asVersion
  rw [e0]
  by_cases hw : 84 ≤ w.num
  · rw [if_pos hw]
  · rw [if_neg hw]
    have hv'' : ¬ 84 ≤ v.num := by omega
    have e1 := h.idle_attack_graphic.of_lt' hv''
    have e2 := h.charge_target.of_lt' hv''
    have e3 := h.charge_projectile_unit.of_lt' hv''
    have e4 := h.attack_priority.of_lt' hv''
    have e5 := h.invulnerability_level.of_lt' hv''
    have e6 := h.button_icon_id.of_lt' hv''
    have e7 := h.button_short_tooltip_id.of_lt' hv''
    have e8 := h.button_extended_tooltip_id.of_lt' hv''
    have e9 := h.button_hotkey_action.of_lt' hv''
    cases x
    dsimp only at *
    rw [e1, e2, e3, e4, e5, e6, e7, e8, e9]

/-! ## C35: to another version below 8.8 -/

theorem Unit.asVersion_old {v w : Version} {x : Unit} (h : Unit.WF v x) (hv : v.num < 84 ∨ 84 ≤ w.num) (hv' : v.num < 88)
    (hw : w.num < 88) : x.asVersion w = x := by
  have e : x.hotKeyAs w = x.hot_key := by unfold Unit.hotKeyAs; rw [if_neg (Nat.not_le_of_lt hw)]
  unfold Unit.asVersion
  rw [e, omap_eq_self fun b hb => Bird.asVersion_old (h.bird.2 b hb) hv',
    omap_eq_self fun b hb => Type50.asVersion_old (h.type_50.2 b hb) hv,
    omap_eq_self fun b hb => Creatable.asVersion_old (h.creatable.2 b hb) hv hv']

theorem Civ.asVersion_old {v w : Version} {x : Civ} (h : Civ.WF v x) (hv : v.num < 84 ∨ 84 ≤ w.num) (hv' : v.num < 88)
    (hw : w.num < 88) : x.asVersion w = x := by
  unfold Civ.asVersion
  rw [map_eq_self fun o ho => omap_eq_self fun u hu => Unit.asVersion_old (h.units.2 o ho u hu) hv hv' hw]

theorem Tech.asVersion_old {v w : Version} {x : Tech} (h : Tech.WF v x) (hv' : v.num < 88) : x.asVersion w = x := by
  have : (if 88 ≤ w.num then x.research_locations else oneLocation x.research_locations) = x.research_locations := by
    split
    · rfl
    · have := (h.research_locations.of_lt' (Nat.not_le_of_lt hv')).1
      match hl : x.research_locations, this with
      | [r], _ => rfl
  unfold Tech.asVersion
  rw [this]

/-- A well-formed file of a version below 8.8 can be saved as any later version below 8.8; only the version text changes. -/
theorem C35_upgrade (v w : Version) (d : DatFile) (hd : DatFile.WFAt v d) (hvw : v.num ≤ w.num) (hw : w.num < 88) :
    ConvertsTo w d { d with version := w.value } := by
  have hne : w ≠ .UNDEFINED := by
    rintro rfl
    have := hd.version
    have h71 : ∀ p ∈ versionNames, 71 ≤ p.2.num := by decide
    have := h71 _ this
    have : Version.UNDEFINED.num = 0 := rfl
    dsimp only at *
    omega
  have hs : d.DropSitesFit w := by
    intro c hc u hu hw' b hb
    have := ((hd.civs.2 c hc).units.2 _ hu u rfl).bird.2 b hb
    exact (this.drop_sites.of_lt' (by omega)).1
  have h1 := C21_any_version v w d hd hne hs (not_homeless_of_old hd (by omega))
  have hcase : v.num < 84 ∨ 84 ≤ w.num := by omega
  have e : d.asVersion w = { d with version := w.value } := by
    unfold DatFile.asVersion
    rw [map_eq_self fun x hx => UnitHeaders.asVersion_old (hd.unit_headers.2 x hx) (by omega),
      map_eq_self fun x hx => Civ.asVersion_old (hd.civs.2 x hx) hcase (by omega) hw,
      map_eq_self fun x hx => Tech.asVersion_old (hd.techs.2 x hx) (by omega)]
  rw [e] at h1
  exact h1

/-- In particular files of versions 7.1 – 7.8 can be saved as 8.4; the fields introduced by 8.4 have the values that the older
readers fill in. -/
theorem C35_upgrade_to_84 (v : Version) (d : DatFile) (hd : DatFile.WFAt v d) (hv : v.num < 84) :
    ConvertsTo .VER_84 d { d with version := lit "VER 8.4" } ∧
    ∀ c ∈ d.civs, ∀ u, some u ∈ c.units →
      (∀ t, u.type_50 = some t → t.damage_reflection = PyFloat.zero ∧ t.friendly_fire_damage = PyFloat.one ∧
        t.interrupt_frame = -1 ∧ t.garrison_firepower = PyFloat.zero ∧ t.attack_graphic_2 = -1) ∧
      (∀ r, u.creatable = some r → r.idle_attack_graphic = -1 ∧ r.charge_target = 0 ∧ r.charge_projectile_unit = -1 ∧
        r.attack_priority = 0 ∧ r.invulnerability_level = PyFloat.zero ∧ r.button_icon_id = -1 ∧
        r.button_short_tooltip_id = -1 ∧ r.button_extended_tooltip_id = -1 ∧ r.button_hotkey_action = -1) := by
  refine ⟨C35_upgrade v .VER_84 d hd (Nat.le_of_lt hv) (by decide), fun c hc u hu => ?_⟩
  have h1 := (hd.civs.2 c hc).units.2 _ hu u rfl
  have hv' : ¬ 84 ≤ v.num := by omega
  constructor
  · intro t ht
    have h := h1.type_50.2 t ht
    exact ⟨h.damage_reflection.of_lt' hv', h.friendly_fire_damage.of_lt' hv', h.interrupt_frame.of_lt' hv',
      h.garrison_firepower.of_lt' hv', h.attack_graphic_2.of_lt' hv'⟩
  · intro r hr
    have h := h1.creatable.2 r hr
    exact ⟨h.idle_attack_graphic.of_lt' hv', h.charge_target.of_lt' hv', h.charge_projectile_unit.of_lt' hv',
      h.attack_priority.of_lt' hv', h.invulnerability_level.of_lt' hv', h.button_icon_id.of_lt' hv',
      h.button_short_tooltip_id.of_lt' hv', h.button_extended_tooltip_id.of_lt' hv', h.button_hotkey_action.of_lt' hv'⟩

/-- A parsed file, so converted: the same in terms of the readers only. -/
theorem C35_parsed (h h' : ByteHandler) (d : DatFile) (hr : DatFile.fromBytes h = .ok (d, h')) (hv : h'.version.num < 84) :
    ConvertsTo .VER_84 d { d with version := lit "VER 8.4" } :=
  (C35_upgrade_to_84 _ d (C13_parsed_wellformed _ _ _ hr) hv).1

example : DatFile.WFAt .VER_78 (Sample.datFile .VER_78) ∧ Version.VER_78.num < 84 := ⟨Sample.datFile_wf _ (by decide), by decide⟩

/-! ## C20: to 8.8 -/

/-- A well-formed file of any version below 8.8 can be saved as 8.8; besides the version only the hot keys of units without
creatable record change (to 16000). -/
theorem C20_upgrade (v : Version) (d : DatFile) (hd : DatFile.WFAt v d) (hv : v.num < 88) : ConvertsTo .VER_88 d d.upgraded88 := by
  have h1 := C21_any_version v .VER_88 d hd (by decide) (dropSites_of_new (by decide)) (not_homeless_of_new (by decide))
  have hw : 88 ≤ Version.VER_88.num := by decide
  have hcase : v.num < 84 ∨ 84 ≤ Version.VER_88.num := .inr (by decide)
  have hu : ∀ u, Unit.WF v u → u.asVersion .VER_88 = if u.creatable.isNone then { u with hot_key := 16000 } else u := by
    intro u h
    unfold Unit.asVersion
    rw [omap_eq_self fun b hb => Bird.asVersion_old (h.bird.2 b hb) hv,
      omap_eq_self fun b hb => Type50.asVersion_old (h.type_50.2 b hb) hcase]
    cases hc : u.creatable with
    | none =>
      have e : u.hotKeyAs .VER_88 = 16000 := by unfold Unit.hotKeyAs; rw [if_pos hw, hc]
      rw [e, Option.isNone_none, if_pos rfl]
      rfl
    | some c =>
      have hk := h.creatable.2 c hc
      obtain ⟨t, ht, -, -, -, h4⟩ := hk.train_locations.of_lt' (Nat.not_le_of_lt hv)
      have e : u.hotKeyAs .VER_88 = u.hot_key := by unfold Unit.hotKeyAs; rw [if_pos hw, hc]; dsimp only; rw [ht]; exact h4
      rw [e, Option.map_some, Creatable.asVersion_old hk hcase hv, if_neg (by simp), ← hc]
  have e : d.asVersion .VER_88 = d.upgraded88 := by
    unfold DatFile.asVersion DatFile.upgraded88 DatFile.mapUnits
    rw [map_eq_self fun x hx => UnitHeaders.asVersion_old (hd.unit_headers.2 x hx) hv,
      map_eq_self fun x hx => Tech.asVersion_old (hd.techs.2 x hx) hv]
    have : ∀ c ∈ d.civs, Civ.asVersion .VER_88 c =
        { c with units := c.units.map fun u => u.map fun u => if u.creatable.isNone then { u with hot_key := 16000 } else u } := by
      intro c hc
      unfold Civ.asVersion
      congr 1
      refine List.map_congr_left fun o ho => ?_
      cases o with
      | none => rfl
      | some u => rw [Option.map_some, Option.map_some, hu u ((hd.civs.2 c hc).units.2 _ ho u rfl)]
    rw [List.map_congr_left this]
    rfl
  rw [e] at h1
  exact h1

/-- The same for a parsed file. -/
theorem C20_parsed (h h' : ByteHandler) (d : DatFile) (hr : DatFile.fromBytes h = .ok (d, h')) (hv : h'.version = .VER_84) :
    ConvertsTo .VER_88 d d.upgraded88 :=
  C20_upgrade .VER_84 d (hv ▸ C13_parsed_wellformed _ _ _ hr) (by decide)

example : DatFile.WFAt .VER_84 (Sample.datFile .VER_84) ∧ Version.VER_84.num < 88 := ⟨Sample.datFile_wf _ (by decide), by decide⟩

/-- The missile of the sample has no creatable; its hot key would change if it were another one. -/
example : ({ Sample.datFile .VER_84 with civs := [{ Sample.civ .VER_84 with units := [some { Sample.missile .VER_84 with hot_key := 5 }] }] }
    : DatFile).upgraded88.civs.map (fun c => c.units.map fun u => u.map (·.hot_key)) = [[some 16000]] := by decide +kernel

/-! ## C21: from 8.8 to 8.4 -/

/-- A well-formed file of version 8.8 can be saved as 8.4 if no creatable is without train location; what is left is as
described. -/
theorem C21_downgrade (d : DatFile) (hd : DatFile.WFAt .VER_88 d) (hh : ¬ d.Homeless .VER_84) : ConvertsTo .VER_84 d d.downgraded84 := by
  have h1 := C21_any_version .VER_88 .VER_84 d hd (by decide) (dropSites_of_new (by decide)) hh
  have ht : Task.asVersion .VER_84 = fun t => { t with enabled := -1 } := by
    funext t; unfold Task.asVersion; rw [if_neg (by decide)]
  have hu : ∀ u, Unit.WF .VER_88 u → u.asVersion .VER_84 =
      { u with
        bird := u.bird.map fun b => { b with tasks := b.tasks.map fun t => { t with enabled := -1 } }
        creatable := u.creatable.map fun c => { c with train_locations := c.train_locations.take 1 } } := by
    intro u h
    have e : u.hotKeyAs .VER_84 = u.hot_key := by unfold Unit.hotKeyAs; rw [if_neg (by decide)]
    unfold Unit.asVersion
    rw [e]
    have e1 : Bird.asVersion .VER_84 = fun b => { b with tasks := b.tasks.map fun t => { t with enabled := -1 } } := by
      funext b; unfold Bird.asVersion; rw [ht]
    have e2 : u.type_50.map (Type50.asVersion .VER_84) = u.type_50 := omap_eq_self fun t _ => by
      unfold Type50.asVersion; rw [if_pos (by decide)]
    have e3 : u.creatable.map (Creatable.asVersion .VER_84 u.hot_key) =
        u.creatable.map fun c => { c with train_locations := c.train_locations.take 1 } := by
      cases hc : u.creatable with
      | none => rfl
      | some c =>
        rw [Option.map_some, Option.map_some]
        unfold Creatable.asVersion
        rw [if_pos (by decide), if_neg (by decide)]
        cases hl : c.train_locations with
        | nil => rfl
        | cons t l =>
          have := (h.hot_key.of_ge' (by decide)).1 c t l hc hl
          rw [this]
          rfl
    rw [e1, e2, e3]
  have e : d.asVersion .VER_84 = d.downgraded84 := by
    unfold DatFile.asVersion DatFile.downgraded84 DatFile.mapUnits
    have e1 : UnitHeaders.asVersion .VER_84 = fun h =>
        { h with task_list := h.task_list.map fun l => l.map fun t => { t with enabled := -1 } } := by
      funext h; unfold UnitHeaders.asVersion; rw [ht]
    have e2 : Tech.asVersion .VER_84 = fun t => { t with research_locations := oneLocation t.research_locations } := by
      funext t; unfold Tech.asVersion; rw [if_neg (by decide)]
    have e3 : ∀ c ∈ d.civs, Civ.asVersion .VER_84 c = { c with units := c.units.map fun u => u.map fun u =>
      { u with
        bird := u.bird.map fun b => { b with tasks := b.tasks.map fun t => { t with enabled := -1 } }
        creatable := u.creatable.map fun c => { c with train_locations := c.train_locations.take 1 } } } := by
      intro c hc
      unfold Civ.asVersion
      congr 1
      refine List.map_congr_left fun o ho => ?_
      cases o with
      | none => rfl
      | some u => rw [Option.map_some, Option.map_some, hu u ((hd.civs.2 c hc).units.2 _ ho u rfl)]
    rw [e1, e2, List.map_congr_left e3]
    rfl
  rw [e] at h1
  exact h1

/-- Otherwise saving raises `IndexError`: to any version below 8.8 (with three drop sites per bird below 7.8). -/
theorem C21_homeless (w : Version) (d : DatFile) (hd : DatFile.WFAt .VER_88 d) (hw : w ≠ .UNDEFINED) (hs : d.DropSitesFit w)
    (hh : d.Homeless w) : DatFile.toBytes { d with version := w.value } = .error .indexError := by
  have hv : Version.ofStr ({ d with version := w.value } : DatFile).version = .ok w := C17_lookup w
  obtain ⟨e, he⟩ := C37_datfile_refused { d with version := w.value } w rfl (.inr hh)
  rw [he]
  rcases DatFile.settle_causes ((DatFile.writesAt hv).error e he) with h1 | rfl
  · exfalso
    have h2 := DatFile.wf_asVersion w (DatFile.settle_wf (by decide) hd) hw (DatFile.settle_dropSites hs) (DatFile.settle_not_homeless w d)
    obtain ⟨bs, h3, -⟩ := C12_datfile_round_trip w _ h2
    rw [← C21_same_bytes] at h3
    have h4 := ((DatFile.writesAt (v := w) (x := { d.settle with version := w.value }) (C17_lookup w)).ok _ h3).1
    rw [DatFile.settle_version, h4] at h1
    cases h1
  · rfl

/-- So a downgrade to 8.4 raises `IndexError` exactly if some creatable has no train location, and succeeds otherwise. -/
theorem C21_downgrade_iff (d : DatFile) (hd : DatFile.WFAt .VER_88 d) :
    (DatFile.toBytes { d with version := lit "VER 8.4" } = .error .indexError ↔ d.Homeless .VER_84) ∧
    ((∃ bs, DatFile.toBytes { d with version := lit "VER 8.4" } = .ok bs) ↔ ¬ d.Homeless .VER_84) := by
  have key : ∀ r : Py Bytes, (d.Homeless .VER_84 → r = .error .indexError) → (¬ d.Homeless .VER_84 → ∃ bs, r = .ok bs) →
      (r = .error .indexError ↔ d.Homeless .VER_84) ∧ ((∃ bs, r = .ok bs) ↔ ¬ d.Homeless .VER_84) := by
    intro r h1 h2
    by_cases h : d.Homeless .VER_84
    · rw [h1 h]; simp [h]
    · obtain ⟨bs, hb⟩ := h2 h
      rw [hb]; simp [h]
  exact key _ (C21_homeless .VER_84 d hd (by decide) (dropSites_of_new (by decide)))
    (fun h => (C21_downgrade d hd h).elim fun bs hb => ⟨bs, hb.1⟩)

/-- The same for a parsed file. -/
theorem C21_parsed (h h' : ByteHandler) (d : DatFile) (hr : DatFile.fromBytes h = .ok (d, h')) (hv : h'.version = .VER_88) :
    (d.Homeless .VER_84 ∧ DatFile.toBytes { d with version := lit "VER 8.4" } = .error .indexError) ∨
    (¬ d.Homeless .VER_84 ∧ ConvertsTo .VER_84 d d.downgraded84) := by
  have hd : DatFile.WFAt .VER_88 d := hv ▸ C13_parsed_wellformed _ _ _ hr
  by_cases hh : d.Homeless .VER_84
  · exact .inl ⟨hh, (C21_downgrade_iff d hd).1.2 hh⟩
  · exact .inr ⟨hh, C21_downgrade d hd hh⟩

/-- A file with a creatable without train location. -/
def Sample.homelessFile : DatFile :=
  let u := { Sample.archer .VER_88 with
    hot_key := 16000
    creatable := (Sample.archer .VER_88).creatable.map fun c => { c with train_locations := [] } }
  { Sample.datFile .VER_88 with civs := [{ Sample.civ .VER_88 with units := [some u] }] }

/-- Both cases occur. -/
example : DatFile.WFAt .VER_88 Sample.homelessFile ∧ Sample.homelessFile.Homeless .VER_84 :=
  ⟨{ Sample.datFile_wf .VER_88 (by decide) with civs := by decide +kernel },
    _, List.mem_cons_self, _, List.mem_cons_self, by decide, by decide, _, rfl, by decide, rfl⟩

example : DatFile.WFAt .VER_88 (Sample.datFile .VER_88) ∧ ¬ (Sample.datFile .VER_88).Homeless .VER_84 := by
  refine ⟨Sample.datFile_wf _ (by decide), ?_⟩
  rintro ⟨c, hc, u, hu, -, -, cr, hcr, -, he⟩
  have : ∀ c ∈ (Sample.datFile .VER_88).civs, ∀ u ∈ c.units, ∀ cr ∈ (u.bind (·.creatable)).toList, cr.train_locations.length ≠ 0 := by
    decide +kernel
  exact this c hc _ hu cr (by simp [hcr]) (by rw [he]; rfl)

/-- The sample loses the `enabled` flags of its tasks and the second train locations. -/
example : (Sample.datFile .VER_88).downgraded84.civs ≠ (Sample.datFile .VER_88).civs := by decide +kernel

end Genie
