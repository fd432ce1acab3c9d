import Verif.Props.C20_C21_C35_Conversion
/-!
# C40: conversions one after the other

Upgrading a file to 8.8 and going back to its own version; downgrading an 8.8 file to 8.4 and going up again; converting twice to the same
version.
-/

namespace Genie

/-- The units without creatable record get the hot key 16000, nothing else changes. -/
def DatFile.forgetHotKeys (x : DatFile) : DatFile :=
  DatFile.mapUnits (fun u => if u.creatable.isNone then { u with hot_key := 16000 } else u) x

theorem ConvertsTo.of_wf {w : Version} {d : DatFile} (h : DatFile.WFAt w { d with version := w.value }) :
    ConvertsTo w d { d with version := w.value } := by
  obtain ⟨bs, h1, h2⟩ := C12_datfile_round_trip w _ h
  have h3 := h2 [] [] .UNDEFINED false
  simp only [List.nil_append, List.append_nil, List.length_nil, Nat.zero_add] at h3
  exact ⟨bs, h1, _, h3, rfl, rfl⟩

theorem Version.value_of_mem {s : PyStr} {v : Version} (h : (s, v) ∈ versionNames) : s = v.value := by
  have : ∀ p ∈ versionNames, p.1 = p.2.value := by decide
  exact this _ h

theorem UpTo.mapped {n : Nat} {P Q : α → Prop} {f : α → α} {l : List α} (h : UpTo n P l) (hf : ∀ x ∈ l, P x → Q (f x)) :
    UpTo n Q (l.map f) := by
  refine ⟨by rw [List.length_map]; exact h.1, fun y hy => ?_⟩
  obtain ⟨x, hx, rfl⟩ := List.mem_map.1 hy
  exact hf x hx (h.2 x hx)

theorem Unit.forgetHotKey_wf {v : Version} {u : Unit} (h : Unit.WF v u) (hv : v.num < 88) :
    Unit.WF v (if u.creatable.isNone then { u with hot_key := 16000 } else u) := by
  split
  · rename_i hc
    have hc : u.creatable = none := Option.isNone_iff_eq_none.1 hc
    exact { h with
      hot_key := Since.of_lt (Nat.not_le_of_lt hv) (show IsI32 (16000 : Int) by unfold IsI32; decide)
      creatable := ⟨h.creatable.1, fun c h' => by rw [show ({ u with hot_key := 16000 } : Unit).creatable = none from hc] at h'; cases h'⟩ }
  · exact h

theorem DatFile.forgetHotKeys_wf {v : Version} {d : DatFile} (hd : DatFile.WFAt v d) (hv : v.num < 88) :
    DatFile.WFAt v d.forgetHotKeys :=
  { hd with
    civs := hd.civs.mapped fun c _ hc => { hc with
      units := hc.units.mapped fun o ho h' u hu => by
        cases o with
        | none => cases hu
        | some u' => cases hu; exact Unit.forgetHotKey_wf (h' u' rfl) hv } }

/-- A file of any version below 8.8, saved as 8.8, loaded, saved again as its own version and loaded, is as it was except for the hot
keys of the units without creatable record. -/
theorem C40_up_and_back (v : Version) (d : DatFile) (hd : DatFile.WFAt v d) (hv : v.num < 88) :
    ∃ d88, ConvertsTo .VER_88 d d88 ∧ ConvertsTo v d88 d.forgetHotKeys := by
  refine ⟨d.upgraded88, C20_upgrade v d hd hv, ?_⟩
  have e : ({ d.upgraded88 with version := v.value } : DatFile) = d.forgetHotKeys := by
    unfold DatFile.upgraded88 DatFile.forgetHotKeys DatFile.mapUnits
    rw [← Version.value_of_mem hd.version]
  have := ConvertsTo.of_wf (w := v) (d := d.upgraded88) (by rw [e]; exact DatFile.forgetHotKeys_wf hd hv)
  rw [e] at this
  exact this

/-- The same for a parsed file. -/
theorem C40_up_and_back_parsed (h h' : ByteHandler) (d : DatFile) (hr : DatFile.fromBytes h = .ok (d, h')) (hv : h'.version.num < 88) :
    ∃ d88, ConvertsTo .VER_88 d d88 ∧ ConvertsTo h'.version d88 d.forgetHotKeys :=
  C40_up_and_back _ d (C13_parsed_wellformed _ _ _ hr) hv

theorem Unit.asVersion_forgets_nothing {w : Version} {u : Unit} (h : Unit.WF .VER_88 u) (hw : w.num < 88) :
    (if (u.asVersion w).creatable.isNone then { u.asVersion w with hot_key := 16000 } else u.asVersion w) = u.asVersion w := by
  split
  · rename_i hc
    have hc' : u.creatable = none := by
      have : (u.creatable.map (Creatable.asVersion w (u.hotKeyAs w))).isNone := hc
      simpa using this
    have hk : u.hot_key = 16000 := (h.hot_key.of_ge' (by decide)).2 fun c h' => by rw [hc'] at h'; cases h'
    have e : (u.asVersion w).hot_key = 16000 := by
      show u.hotKeyAs w = 16000
      unfold Unit.hotKeyAs
      rw [if_neg (Nat.not_le_of_lt hw), hk]
    rw [← e]
  · rfl

/-- A file of version 8.8, saved as an older version and upgraded again, is (except for the version) what was left after the first step:
the way back loses nothing more. -/
theorem C40_down_and_up (w : Version) (d : DatFile) (hd : DatFile.WFAt .VER_88 d) (hw : w.num < 88) (hne : w ≠ .UNDEFINED)
    (hs : d.DropSitesFit w) (hh : ¬ d.Homeless w) :
    ∃ d', ConvertsTo w d d' ∧ ConvertsTo .VER_88 d' { d' with version := lit "VER 8.8" } := by
  have h1 := DatFile.wf_asVersion w hd hne hs hh
  refine ⟨d.asVersion w, C21_converts w d h1, ?_⟩
  have h2 := C20_upgrade w _ h1 hw
  have e : (d.asVersion w).upgraded88 = { d.asVersion w with version := lit "VER 8.8" } := by
    unfold DatFile.upgraded88 DatFile.mapUnits
    congr 1
    refine map_eq_self fun c hc => ?_
    obtain ⟨c', hc', rfl⟩ := List.mem_map.1 hc
    have : ((Civ.asVersion w c').units.map fun u => u.map fun u => if u.creatable.isNone then { u with hot_key := 16000 } else u) =
        (Civ.asVersion w c').units := by
      refine map_eq_self fun o ho => omap_eq_self fun u hu => ?_
      subst hu
      obtain ⟨o', ho', e'⟩ := List.mem_map.1 ho
      cases o' with
      | none => cases e'
      | some u' => cases e'; exact Unit.asVersion_forgets_nothing ((hd.civs.2 c' hc').units.2 _ ho' u' rfl) hw
    rw [this]
  rw [e] at h2
  exact h2

/-- Converting once more to the same version changes nothing. -/
theorem C40_convert_twice (w : Version) (d d' : DatFile) (h : ConvertsTo w d d') : ConvertsTo w d' d' := by
  obtain ⟨bs, -, h', h2, -, rfl⟩ := h
  have hwf := C13_parsed_wellformed _ _ _ h2
  have e : ({ d' with version := h'.version.value } : DatFile) = d' := by rw [← Version.value_of_mem hwf.version]
  have := ConvertsTo.of_wf (w := h'.version) (d := d') (by rw [e]; exact hwf)
  rwa [e] at this

/-- The outcome of a conversion is unique. -/
theorem C40_convert_unique (w : Version) (d d1 d2 : DatFile) (h1 : ConvertsTo w d d1) (h2 : ConvertsTo w d d2) : d1 = d2 := by
  obtain ⟨b1, e1, k1, f1, -, -⟩ := h1
  obtain ⟨b2, e2, k2, f2, -, -⟩ := h2
  rw [e1] at e2
  cases e2
  rw [f1] at f2
  exact (Prod.mk.inj (Except.ok.inj f2)).1

/-- The samples meet the hypotheses, and hot keys do get lost. -/
example : DatFile.WFAt .VER_84 (Sample.datFile .VER_84) ∧ DatFile.WFAt .VER_77 (Sample.datFile .VER_77) ∧
    DatFile.WFAt .VER_88 (Sample.datFile .VER_88) := ⟨Sample.datFile_wf _ (by decide), Sample.datFile_wf _ (by decide), Sample.datFile_wf _ (by decide)⟩

example : ({ Sample.datFile .VER_84 with civs := [{ Sample.civ .VER_84 with
      units := [some { Sample.missile .VER_84 with hot_key := 5 }, none, some { Sample.archer .VER_84 with hot_key := 7 }] }] }
    : DatFile).forgetHotKeys.civs.map (fun c => c.units.map fun u => u.map (·.hot_key)) = [[some 16000, none, some 7]] := by decide +kernel

end Genie
