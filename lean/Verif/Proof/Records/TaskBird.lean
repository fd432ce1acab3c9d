import Verif.Proof.Records.UnitParts
import Verif.Spec.Versioned
/-! # Write-read and read-write lemmas: `Task`, `UnitHeaders`, `Bird`, `Type50` -/

namespace Genie

theorem since_pos {v : Version} {n : Nat} {p q : Prop} (h : n ≤ v.num) (hp : p) : Since v n p q := by
  unfold Since; rwa [if_pos h]
theorem since_neg {v : Version} {n : Nat} {p q : Prop} (h : ¬ n ≤ v.num) (hq : q) : Since v n p q := by
  unfold Since; rwa [if_neg h]
theorem Since.pos {v : Version} {n : Nat} {p q : Prop} (hs : Since v n p q) (h : n ≤ v.num) : p := by
  unfold Since at hs; rwa [if_pos h] at hs
theorem Since.neg {v : Version} {n : Nat} {p q : Prop} (hs : Since v n p q) (h : ¬ n ≤ v.num) : q := by
  unfold Since at hs; rwa [if_neg h] at hs

theorem Task.rw {v : Version} {x : Task} (h : Task.WF v x) : RW v Task.fromBytes (Task.toBytes v x) x := by
  unfold Task.fromBytes Task.toBytes
  refine RW.getVersion ?_
  by_cases hv : 88 ≤ v.num
  · have hg : v.ge .VER_88 = true := (ge_iff _ _).2 hv
    rw [if_pos hg, if_pos hg]
    have henabled := h.enabled.pos hv
    unfold Task.fromBytes88 Task.toBytes88
    refine RW.map (RW.unpack (cs := [.h, .h, .b, .h, .h, .h, .h, .h, .h, .h, .h, .f, .f, .f, .b, .f, .b, .b, .h, .h, .b, .b, .b, .h, .h, .h, .h, .h, .h, .l, .l, .h]) (by decide) (by decide)
      ⟨h.task_type, h.id, h.is_default, h.action_type, h.class_id, h.unit_id, h.terrain_id, h.resource_in, h.resource_multiplier, h.resource_out, h.unused_resource, h.work_value_1, h.work_value_2, h.work_range, h.auto_search_targets, h.search_wait_time, h.enable_targeting, h.combat_level_flag, h.gather_type, h.work_flag_2, h.target_diplomacy, h.carry_check, h.pick_for_construction, h.moving_graphic_id, h.proceeding_graphic_id, h.working_graphic_id, h.carrying_graphic_id, h.resource_gathering_sound_id, h.resource_deposit_sound_id, h.wwise_resource_gathering_sound_id, h.wwise_resource_deposit_sound_id, henabled, trivial⟩) ?_
    dsimp only [popInt, popFloat, popDone]
    exact Reads.pure rfl
  · have hg : ¬ v.ge .VER_88 = true := fun k => hv ((ge_iff _ _).1 k)
    rw [if_neg hg, if_neg hg]
    have henabled := h.enabled.neg hv
    unfold Task.fromBytes84 Task.toBytes84
    refine RW.map (RW.unpack (cs := [.h, .h, .b, .h, .h, .h, .h, .h, .h, .h, .h, .f, .f, .f, .b, .f, .b, .b, .h, .h, .b, .b, .b, .h, .h, .h, .h, .h, .h, .l, .l]) (by decide) (by decide)
      ⟨h.task_type, h.id, h.is_default, h.action_type, h.class_id, h.unit_id, h.terrain_id, h.resource_in, h.resource_multiplier, h.resource_out, h.unused_resource, h.work_value_1, h.work_value_2, h.work_range, h.auto_search_targets, h.search_wait_time, h.enable_targeting, h.combat_level_flag, h.gather_type, h.work_flag_2, h.target_diplomacy, h.carry_check, h.pick_for_construction, h.moving_graphic_id, h.proceeding_graphic_id, h.working_graphic_id, h.carrying_graphic_id, h.resource_gathering_sound_id, h.resource_deposit_sound_id, h.wwise_resource_gathering_sound_id, h.wwise_resource_deposit_sound_id, trivial⟩) ?_
    dsimp only [popInt, popFloat, popDone]
    rw [← henabled]
    exact Reads.pure rfl

theorem Task.good (v : Version) :
    Good v Task.fromBytes (Task.WF v) (fun x bs => Task.toBytes v x = .ok bs) := by
  unfold Task.fromBytes
  refine Good.getVersion ?_
  by_cases hv : 88 ≤ v.num
  · have hg : v.ge .VER_88 = true := (ge_iff _ _).2 hv
    rw [if_pos hg]
    unfold Task.fromBytes88
    refine Good.bind (Good.unpack (cs := [.h, .h, .b, .h, .h, .h, .h, .h, .h, .h, .h, .f, .f, .f, .b, .f, .b, .b, .h, .h, .b, .b, .b, .h, .h, .h, .h, .h, .h, .l, .l, .h]) (by decide)) fun vs hm => ?_
    obtain ⟨task_type, vs, rfl, h_task_type, hm⟩ := hm.popH
    obtain ⟨id, vs, rfl, h_id, hm⟩ := hm.popH
    obtain ⟨is_default, vs, rfl, h_is_default, hm⟩ := hm.popB
    obtain ⟨action_type, vs, rfl, h_action_type, hm⟩ := hm.popH
    obtain ⟨class_id, vs, rfl, h_class_id, hm⟩ := hm.popH
    obtain ⟨unit_id, vs, rfl, h_unit_id, hm⟩ := hm.popH
    obtain ⟨terrain_id, vs, rfl, h_terrain_id, hm⟩ := hm.popH
    obtain ⟨resource_in, vs, rfl, h_resource_in, hm⟩ := hm.popH
    obtain ⟨resource_multiplier, vs, rfl, h_resource_multiplier, hm⟩ := hm.popH
    obtain ⟨resource_out, vs, rfl, h_resource_out, hm⟩ := hm.popH
    obtain ⟨unused_resource, vs, rfl, h_unused_resource, hm⟩ := hm.popH
    obtain ⟨work_value_1, vs, rfl, h_work_value_1, hm⟩ := hm.popF
    obtain ⟨work_value_2, vs, rfl, h_work_value_2, hm⟩ := hm.popF
    obtain ⟨work_range, vs, rfl, h_work_range, hm⟩ := hm.popF
    obtain ⟨auto_search_targets, vs, rfl, h_auto_search_targets, hm⟩ := hm.popB
    obtain ⟨search_wait_time, vs, rfl, h_search_wait_time, hm⟩ := hm.popF
    obtain ⟨enable_targeting, vs, rfl, h_enable_targeting, hm⟩ := hm.popB
    obtain ⟨combat_level_flag, vs, rfl, h_combat_level_flag, hm⟩ := hm.popB
    obtain ⟨gather_type, vs, rfl, h_gather_type, hm⟩ := hm.popH
    obtain ⟨work_flag_2, vs, rfl, h_work_flag_2, hm⟩ := hm.popH
    obtain ⟨target_diplomacy, vs, rfl, h_target_diplomacy, hm⟩ := hm.popB
    obtain ⟨carry_check, vs, rfl, h_carry_check, hm⟩ := hm.popB
    obtain ⟨pick_for_construction, vs, rfl, h_pick_for_construction, hm⟩ := hm.popB
    obtain ⟨moving_graphic_id, vs, rfl, h_moving_graphic_id, hm⟩ := hm.popH
    obtain ⟨proceeding_graphic_id, vs, rfl, h_proceeding_graphic_id, hm⟩ := hm.popH
    obtain ⟨working_graphic_id, vs, rfl, h_working_graphic_id, hm⟩ := hm.popH
    obtain ⟨carrying_graphic_id, vs, rfl, h_carrying_graphic_id, hm⟩ := hm.popH
    obtain ⟨resource_gathering_sound_id, vs, rfl, h_resource_gathering_sound_id, hm⟩ := hm.popH
    obtain ⟨resource_deposit_sound_id, vs, rfl, h_resource_deposit_sound_id, hm⟩ := hm.popH
    obtain ⟨wwise_resource_gathering_sound_id, vs, rfl, h_wwise_resource_gathering_sound_id, hm⟩ := hm.popL
    obtain ⟨wwise_resource_deposit_sound_id, vs, rfl, h_wwise_resource_deposit_sound_id, hm⟩ := hm.popL
    obtain ⟨enabled, vs, rfl, h_enabled, hm⟩ := hm.popH
    obtain rfl := hm.done
    dsimp only [popInt, popFloat, popDone]
    refine Good.pure ⟨h_task_type, h_id, h_is_default, h_action_type, h_class_id, h_unit_id, h_terrain_id, h_resource_in, h_resource_multiplier, h_resource_out, h_unused_resource, h_work_value_1, h_work_value_2, h_work_range, h_auto_search_targets, h_search_wait_time, h_enable_targeting, h_combat_level_flag, h_gather_type, h_work_flag_2, h_target_diplomacy, h_carry_check, h_pick_for_construction, h_moving_graphic_id, h_proceeding_graphic_id, h_working_graphic_id, h_carrying_graphic_id, h_resource_gathering_sound_id, h_resource_deposit_sound_id, h_wwise_resource_gathering_sound_id, h_wwise_resource_deposit_sound_id, since_pos hv h_enabled⟩ ?_
    rintro b0 k0
    rw [List.append_nil, Task.toBytes, if_pos hg]; exact k0
  · have hg : ¬ v.ge .VER_88 = true := fun k => hv ((ge_iff _ _).1 k)
    rw [if_neg hg]
    unfold Task.fromBytes84
    refine Good.bind (Good.unpack (cs := [.h, .h, .b, .h, .h, .h, .h, .h, .h, .h, .h, .f, .f, .f, .b, .f, .b, .b, .h, .h, .b, .b, .b, .h, .h, .h, .h, .h, .h, .l, .l]) (by decide)) fun vs hm => ?_
    obtain ⟨task_type, vs, rfl, h_task_type, hm⟩ := hm.popH
    obtain ⟨id, vs, rfl, h_id, hm⟩ := hm.popH
    obtain ⟨is_default, vs, rfl, h_is_default, hm⟩ := hm.popB
    obtain ⟨action_type, vs, rfl, h_action_type, hm⟩ := hm.popH
    obtain ⟨class_id, vs, rfl, h_class_id, hm⟩ := hm.popH
    obtain ⟨unit_id, vs, rfl, h_unit_id, hm⟩ := hm.popH
    obtain ⟨terrain_id, vs, rfl, h_terrain_id, hm⟩ := hm.popH
    obtain ⟨resource_in, vs, rfl, h_resource_in, hm⟩ := hm.popH
    obtain ⟨resource_multiplier, vs, rfl, h_resource_multiplier, hm⟩ := hm.popH
    obtain ⟨resource_out, vs, rfl, h_resource_out, hm⟩ := hm.popH
    obtain ⟨unused_resource, vs, rfl, h_unused_resource, hm⟩ := hm.popH
    obtain ⟨work_value_1, vs, rfl, h_work_value_1, hm⟩ := hm.popF
    obtain ⟨work_value_2, vs, rfl, h_work_value_2, hm⟩ := hm.popF
    obtain ⟨work_range, vs, rfl, h_work_range, hm⟩ := hm.popF
    obtain ⟨auto_search_targets, vs, rfl, h_auto_search_targets, hm⟩ := hm.popB
    obtain ⟨search_wait_time, vs, rfl, h_search_wait_time, hm⟩ := hm.popF
    obtain ⟨enable_targeting, vs, rfl, h_enable_targeting, hm⟩ := hm.popB
    obtain ⟨combat_level_flag, vs, rfl, h_combat_level_flag, hm⟩ := hm.popB
    obtain ⟨gather_type, vs, rfl, h_gather_type, hm⟩ := hm.popH
    obtain ⟨work_flag_2, vs, rfl, h_work_flag_2, hm⟩ := hm.popH
    obtain ⟨target_diplomacy, vs, rfl, h_target_diplomacy, hm⟩ := hm.popB
    obtain ⟨carry_check, vs, rfl, h_carry_check, hm⟩ := hm.popB
    obtain ⟨pick_for_construction, vs, rfl, h_pick_for_construction, hm⟩ := hm.popB
    obtain ⟨moving_graphic_id, vs, rfl, h_moving_graphic_id, hm⟩ := hm.popH
    obtain ⟨proceeding_graphic_id, vs, rfl, h_proceeding_graphic_id, hm⟩ := hm.popH
    obtain ⟨working_graphic_id, vs, rfl, h_working_graphic_id, hm⟩ := hm.popH
    obtain ⟨carrying_graphic_id, vs, rfl, h_carrying_graphic_id, hm⟩ := hm.popH
    obtain ⟨resource_gathering_sound_id, vs, rfl, h_resource_gathering_sound_id, hm⟩ := hm.popH
    obtain ⟨resource_deposit_sound_id, vs, rfl, h_resource_deposit_sound_id, hm⟩ := hm.popH
    obtain ⟨wwise_resource_gathering_sound_id, vs, rfl, h_wwise_resource_gathering_sound_id, hm⟩ := hm.popL
    obtain ⟨wwise_resource_deposit_sound_id, vs, rfl, h_wwise_resource_deposit_sound_id, hm⟩ := hm.popL
    obtain rfl := hm.done
    dsimp only [popInt, popFloat, popDone]
    refine Good.pure ⟨h_task_type, h_id, h_is_default, h_action_type, h_class_id, h_unit_id, h_terrain_id, h_resource_in, h_resource_multiplier, h_resource_out, h_unused_resource, h_work_value_1, h_work_value_2, h_work_range, h_auto_search_targets, h_search_wait_time, h_enable_targeting, h_combat_level_flag, h_gather_type, h_work_flag_2, h_target_diplomacy, h_carry_check, h_pick_for_construction, h_moving_graphic_id, h_proceeding_graphic_id, h_working_graphic_id, h_carrying_graphic_id, h_resource_gathering_sound_id, h_resource_deposit_sound_id, h_wwise_resource_gathering_sound_id, h_wwise_resource_deposit_sound_id, since_neg hv rfl⟩ ?_
    rintro b0 k0
    rw [List.append_nil, Task.toBytes, if_neg hg]; exact k0

theorem UnitHeaders.rw {v : Version} {x : UnitHeaders} (h : UnitHeaders.WF v x) :
    RW v UnitHeaders.fromBytes (UnitHeaders.toBytes v x) x := by
  obtain ⟨x_exists_, x_task_list⟩ := x
  obtain ⟨h1, h2, h3⟩ := h
  dsimp only at h1 h2 h3
  unfold UnitHeaders.fromBytes UnitHeaders.toBytes
  refine RW.bind (RW.int8 h1) ?_
  by_cases he : x_exists_ ≠ 0
  · obtain ⟨l, rfl⟩ := Option.isSome_iff_exists.1 (h2.1 he)
    have hl := h3 l rfl
    simp only [if_pos he, writeIf]
    refine RW.bind (RW.int16 (isI16_len hl.1)) ?_
    refine RW.bind (RW.classArray rfl fun y hy => Task.rw (hl.2 y hy)) ?_
    exact RW.pure rfl
  · have : x_task_list = none := by
      cases x_task_list with
      | none => rfl
      | some l => exact absurd (h2.2 rfl) he
    subst this
    simp only [if_neg he, writeIf]
    exact ⟨[], rfl, Reads.pure rfl⟩

theorem UnitHeaders.good (v : Version) :
    Good v UnitHeaders.fromBytes (UnitHeaders.WF v) (fun x bs => UnitHeaders.toBytes v x = .ok bs) := by
  unfold UnitHeaders.fromBytes
  refine Good.bind Good.int8 fun exists_ h1 => ?_
  by_cases he : exists_ ≠ 0
  · rw [if_pos he]
    refine Good.bind Good.int16 fun n h2 => ?_
    refine Good.bind (Good.classArray _ (Task.good v)) fun l h3 => ?_
    refine Good.pure ⟨h1, by simp [he], ?_⟩ ?_
    · rintro l' ⟨⟩; exact upTo_i16 h2 h3
    · rintro b2 ⟨rfl, k2⟩ b1 k1 b0 k0
      unfold UnitHeaders.toBytes
      simp only [writeIf, if_pos he]
      exact joinB_cons_ok k0 (joinB_cons_ok k1 (joinB_cons_ok k2 rfl))
  · rw [if_neg he]
    refine Good.pure ⟨h1, by simpa using he, ?_⟩ ?_
    · rintro l' ⟨⟩
    · rintro b0 k0
      unfold UnitHeaders.toBytes
      simp only [writeIf, if_neg he]
      exact joinB_cons_ok k0 rfl

theorem Bird.rw {v : Version} {x : Bird} (h : Bird.WF v x) : RW v Bird.fromBytes (Bird.toBytes v x) x := by
  unfold Bird.fromBytes Bird.toBytes
  refine RW.bind (RW.int16 h.default_task_id) ?_
  refine RW.bind (RW.float h.search_radius) ?_
  refine RW.bind (RW.float h.work_rate) ?_
  refine RW.getVersion ?_
  have hsites : AllOf IsI16 x.drop_sites := by
    by_cases hv : 78 ≤ v.num
    · exact (h.drop_sites.pos hv).2
    · exact (h.drop_sites.neg hv).2
  refine RW.bind (a := (x.drop_sites.length : Int)) ?_ ?_
  · by_cases hv : 78 ≤ v.num
    · have hg : v.gt .VER_77 = true := (gt_iff _ _).2 hv
      have hg' : v.ge .VER_78 = true := (ge_iff _ _).2 hv
      rw [readOr, if_pos hg, writeInt16If, hg']
      simp only [Bool.not_true, Bool.false_eq_true, if_false]
      exact RW.int16 (isI16_len (h.drop_sites.pos hv).1)
    · have hg : ¬ v.gt .VER_77 = true := fun k => hv ((gt_iff _ _).1 k)
      have hg' : v.ge .VER_78 = false := by
        cases hh : v.ge .VER_78
        · rfl
        · exact absurd ((ge_iff _ _).1 hh) hv
      rw [readOr, if_neg hg, writeInt16If, hg']
      refine ⟨[], rfl, Reads.pure ?_⟩
      rw [(h.drop_sites.neg hv).1]; rfl
  refine RW.bind (RW.int16Array rfl hsites) ?_
  refine RW.bind (RW.int8 h.task_swap_group) ?_
  refine RW.bind (RW.int16 h.attack_sound) ?_
  refine RW.bind (RW.int16 h.move_sound) ?_
  refine RW.bind (RW.int32 h.wwise_attack_sound_id) ?_
  refine RW.bind (RW.int32 h.wwise_move_sound_id) ?_
  refine RW.bind (RW.int8 h.run_pattern) ?_
  refine RW.bind (RW.int16 (isI16_len h.tasks.1)) ?_
  refine RW.bind (RW.classArray rfl fun y hy => Task.rw (h.tasks.2 y hy)) ?_
  exact RW.pure rfl

theorem Bird.good (v : Version) :
    Good v Bird.fromBytes (Bird.WF v) (fun x bs => Bird.toBytes v x = .ok bs) := by
  unfold Bird.fromBytes
  refine Good.bind Good.int16 fun default_task_id h_default_task_id => ?_
  refine Good.bind Good.float fun search_radius h_search_radius => ?_
  refine Good.bind Good.float fun work_rate h_work_rate => ?_
  refine Good.getVersion ?_
  refine Good.bind (Q := fun n => Since v 78 (IsI16 n) (n = 3))
    (P := fun n bs => writeInt16If n (v.ge .VER_78) = .ok bs) ?_ fun n hn => ?_
  · by_cases hv : 78 ≤ v.num
    · have hg : v.gt .VER_77 = true := (gt_iff _ _).2 hv
      have hg' : v.ge .VER_78 = true := (ge_iff _ _).2 hv
      rw [readOr, if_pos hg]
      refine Good.mono Good.int16 (fun n h => since_pos hv h) (fun n bs _ h => ?_)
      rw [writeInt16If, hg']; exact h
    · have hg : ¬ v.gt .VER_77 = true := fun k => hv ((gt_iff _ _).1 k)
      have hg' : v.ge .VER_78 = false := by
        cases hh : v.ge .VER_78
        · rfl
        · exact absurd ((ge_iff _ _).1 hh) hv
      rw [readOr, if_neg hg]
      exact Good.pure (since_neg hv rfl) (by rw [writeInt16If, hg']; rfl)
  refine Good.bind (Good.int16Array _) fun drop_sites h_drop_sites => ?_
  refine Good.bind Good.int8 fun task_swap_group h_task_swap_group => ?_
  refine Good.bind Good.int16 fun attack_sound h_attack_sound => ?_
  refine Good.bind Good.int16 fun move_sound h_move_sound => ?_
  refine Good.bind Good.int32 fun wwise_attack_sound_id h_wwise_attack_sound_id => ?_
  refine Good.bind Good.int32 fun wwise_move_sound_id h_wwise_move_sound_id => ?_
  refine Good.bind Good.int8 fun run_pattern h_run_pattern => ?_
  refine Good.bind Good.int16 fun task_size h_task_size => ?_
  refine Good.bind (Good.classArray _ (Task.good v)) fun tasks h_tasks => ?_
  refine Good.pure ⟨h_default_task_id, h_search_radius, h_work_rate, ?_, h_task_swap_group, h_attack_sound,
    h_move_sound, h_wwise_attack_sound_id, h_wwise_move_sound_id, h_run_pattern,
    upTo_i16 h_task_size h_tasks⟩ ?_
  · by_cases hv : 78 ≤ v.num
    · exact since_pos hv (upTo_i16 (hn.pos hv) h_drop_sites)
    · refine since_neg hv ⟨?_, h_drop_sites.2⟩
      have := h_drop_sites.1; rw [hn.neg hv] at this; exact this
  · rintro b12 ⟨rfl, k12⟩ b11 k11 b10 k10 b9 k9 b8 k8 b7 k7 b6 k6 b5 k5 b4 ⟨rfl, k4⟩ b3 k3 b2 k2 b1 k1 b0 k0
    unfold Bird.toBytes
    exact joinB_cons_ok k0 (joinB_cons_ok k1 (joinB_cons_ok k2 (joinB_cons_ok k3 (joinB_cons_ok k4
      (joinB_cons_ok k5 (joinB_cons_ok k6 (joinB_cons_ok k7 (joinB_cons_ok k8 (joinB_cons_ok k9
      (joinB_cons_ok k10 (joinB_cons_ok k11 (joinB_cons_ok k12 rfl))))))))))))

theorem Type50.rw {v : Version} {x : Type50} (h : Type50.WF v x) :
    RW v Type50.fromBytes (Type50.toBytes v x) x := by
  unfold Type50.fromBytes Type50.toBytes
  rw [joinB_append]
  simp only [List.cons_append, List.nil_append]
  refine RW.bind (RW.int16 h.base_armor) ?_
  refine RW.bind (RW.int16 (isI16_len h.attacks.1)) ?_
  refine RW.bind (RW.classArray rfl fun y hy => AttackOrArmor.rw (h.attacks.2 y hy)) ?_
  refine RW.bind (RW.int16 (isI16_len h.armours.1)) ?_
  refine RW.bind (RW.classArray rfl fun y hy => AttackOrArmor.rw (h.armours.2 y hy)) ?_
  refine RW.bind (RW.int16 h.defense_terrain_bonus) ?_
  refine RW.bind (RW.float h.bonus_damage_resistance) ?_
  refine RW.bind (RW.float h.max_range) ?_
  refine RW.bind (RW.float h.blast_width) ?_
  refine RW.bind (RW.float h.reload_time) ?_
  refine RW.bind (RW.int16 h.projectile_unit_id) ?_
  refine RW.bind (RW.int16 h.accuracy_percent) ?_
  refine RW.bind (RW.int8 h.break_off_combat) ?_
  refine RW.bind (RW.int16 h.frame_delay) ?_
  refine RW.bind (RW.floatArray3 h.graphic_displacement) ?_
  refine RW.bind (RW.int8 h.blast_attack_level) ?_
  refine RW.bind (RW.float h.min_range) ?_
  refine RW.bind (RW.float h.accuracy_dispersion) ?_
  refine RW.bind (RW.int16 h.attack_graphic) ?_
  refine RW.bind (RW.int16 h.displayed_melee_armour) ?_
  refine RW.bind (RW.int16 h.displayed_attack) ?_
  refine RW.bind (RW.float h.displayed_range) ?_
  refine RW.bind (RW.float h.displayed_reload_time) ?_
  refine RW.bind (RW.float h.blast_damage) ?_
  refine RW.getVersion ?_
  by_cases hv : 84 ≤ v.num
  · have hg : v.ge .VER_84 = true := (ge_iff _ _).2 hv
    simp only [readOr, hg, if_true]
    rw [joinB_append]
    simp only [List.cons_append, List.nil_append]
    refine RW.bind (RW.float (h.damage_reflection.pos hv)) ?_
    refine RW.bind (RW.float (h.friendly_fire_damage.pos hv)) ?_
    refine RW.bind (RW.int16 (h.interrupt_frame.pos hv)) ?_
    refine RW.bind (RW.float (h.garrison_firepower.pos hv)) ?_
    refine RW.bind (RW.int16 (h.attack_graphic_2.pos hv)) ?_
    exact RW.pure rfl
  · have hg : v.ge .VER_84 = false := by
      cases hh : v.ge .VER_84
      · rfl
      · exact absurd ((ge_iff _ _).1 hh) hv
    simp only [readOr, hg, Bool.false_eq_true, if_false]
    have e_damage_reflection := h.damage_reflection.neg hv
    have e_friendly_fire_damage := h.friendly_fire_damage.neg hv
    have e_interrupt_frame := h.interrupt_frame.neg hv
    have e_garrison_firepower := h.garrison_firepower.neg hv
    have e_attack_graphic_2 := h.attack_graphic_2.neg hv
    refine ⟨[], rfl, Reads.pure ?_⟩
    cases x
    simp only at e_damage_reflection e_friendly_fire_damage e_interrupt_frame e_garrison_firepower e_attack_graphic_2
    subst e_damage_reflection e_friendly_fire_damage e_interrupt_frame e_garrison_firepower e_attack_graphic_2
    rfl

theorem Type50.good (v : Version) :
    Good v Type50.fromBytes (Type50.WF v) (fun x bs => Type50.toBytes v x = .ok bs) := by
  unfold Type50.fromBytes
  refine Good.bind Good.int16 fun base_armor h_base_armor => ?_
  refine Good.bind Good.int16 fun attack_count h_attack_count => ?_
  refine Good.bind (Good.classArray _ (AttackOrArmor.good v)) fun attacks h_attacks => ?_
  refine Good.bind Good.int16 fun armour_count h_armour_count => ?_
  refine Good.bind (Good.classArray _ (AttackOrArmor.good v)) fun armours h_armours => ?_
  refine Good.bind Good.int16 fun defense_terrain_bonus h_defense_terrain_bonus => ?_
  refine Good.bind Good.float fun bonus_damage_resistance h_bonus_damage_resistance => ?_
  refine Good.bind Good.float fun max_range h_max_range => ?_
  refine Good.bind Good.float fun blast_width h_blast_width => ?_
  refine Good.bind Good.float fun reload_time h_reload_time => ?_
  refine Good.bind Good.int16 fun projectile_unit_id h_projectile_unit_id => ?_
  refine Good.bind Good.int16 fun accuracy_percent h_accuracy_percent => ?_
  refine Good.bind Good.int8 fun break_off_combat h_break_off_combat => ?_
  refine Good.bind Good.int16 fun frame_delay h_frame_delay => ?_
  refine Good.bind Good.floatArray3 fun graphic_displacement h_graphic_displacement => ?_
  refine Good.bind Good.int8 fun blast_attack_level h_blast_attack_level => ?_
  refine Good.bind Good.float fun min_range h_min_range => ?_
  refine Good.bind Good.float fun accuracy_dispersion h_accuracy_dispersion => ?_
  refine Good.bind Good.int16 fun attack_graphic h_attack_graphic => ?_
  refine Good.bind Good.int16 fun displayed_melee_armour h_displayed_melee_armour => ?_
  refine Good.bind Good.int16 fun displayed_attack h_displayed_attack => ?_
  refine Good.bind Good.float fun displayed_range h_displayed_range => ?_
  refine Good.bind Good.float fun displayed_reload_time h_displayed_reload_time => ?_
  refine Good.bind Good.float fun blast_damage h_blast_damage => ?_
  refine Good.getVersion ?_
  by_cases hv : 84 ≤ v.num
  · have hg : v.ge .VER_84 = true := (ge_iff _ _).2 hv
    simp only [readOr, hg, if_true]
    refine Good.bind Good.float fun damage_reflection h_damage_reflection => ?_
    refine Good.bind Good.float fun friendly_fire_damage h_friendly_fire_damage => ?_
    refine Good.bind Good.int16 fun interrupt_frame h_interrupt_frame => ?_
    refine Good.bind Good.float fun garrison_firepower h_garrison_firepower => ?_
    refine Good.bind Good.int16 fun attack_graphic_2 h_attack_graphic_2 => ?_
    refine Good.pure ⟨h_base_armor, upTo_i16 h_attack_count h_attacks, upTo_i16 h_armour_count h_armours, h_defense_terrain_bonus, h_bonus_damage_resistance, h_max_range, h_blast_width, h_reload_time, h_projectile_unit_id, h_accuracy_percent, h_break_off_combat, h_frame_delay, h_graphic_displacement, h_blast_attack_level, h_min_range, h_accuracy_dispersion, h_attack_graphic, h_displayed_melee_armour, h_displayed_attack, h_displayed_range, h_displayed_reload_time, h_blast_damage, since_pos hv h_damage_reflection, since_pos hv h_friendly_fire_damage, since_pos hv h_interrupt_frame, since_pos hv h_garrison_firepower, since_pos hv h_attack_graphic_2⟩ ?_
    rintro b28 k28 b27 k27 b26 k26 b25 k25 b24 k24 b23 k23 b22 k22 b21 k21 b20 k20 b19 k19 b18 k18 b17 k17 b16 k16 b15 k15 b14 k14 b13 k13 b12 k12 b11 k11 b10 k10 b9 k9 b8 k8 b7 k7 b6 k6 b5 k5 b4 ⟨rfl, k4⟩ b3 k3 b2 ⟨rfl, k2⟩ b1 k1 b0 k0
    unfold Type50.toBytes
    rw [joinB_append]
    simp only [List.cons_append, List.nil_append, hg, if_true]
    exact joinB_cons_ok k0 (joinB_cons_ok k1 (joinB_cons_ok k2 (joinB_cons_ok k3 (joinB_cons_ok k4 (joinB_cons_ok k5 (joinB_cons_ok k6 (joinB_cons_ok k7 (joinB_cons_ok k8 (joinB_cons_ok k9 (joinB_cons_ok k10 (joinB_cons_ok k11 (joinB_cons_ok k12 (joinB_cons_ok k13 (joinB_cons_ok k14 (joinB_cons_ok k15 (joinB_cons_ok k16 (joinB_cons_ok k17 (joinB_cons_ok k18 (joinB_cons_ok k19 (joinB_cons_ok k20 (joinB_cons_ok k21 (joinB_cons_ok k22 (joinB_cons_ok k23 ((joinB_single _).trans (joinB_cons_ok k24 (joinB_cons_ok k25 (joinB_cons_ok k26 (joinB_cons_ok k27 (joinB_cons_ok k28 rfl)))))))))))))))))))))))))))))
  · have hg : v.ge .VER_84 = false := by
      cases hh : v.ge .VER_84
      · rfl
      · exact absurd ((ge_iff _ _).1 hh) hv
    simp only [readOr, hg, Bool.false_eq_true, if_false]
    refine Good.pure ⟨h_base_armor, upTo_i16 h_attack_count h_attacks, upTo_i16 h_armour_count h_armours, h_defense_terrain_bonus, h_bonus_damage_resistance, h_max_range, h_blast_width, h_reload_time, h_projectile_unit_id, h_accuracy_percent, h_break_off_combat, h_frame_delay, h_graphic_displacement, h_blast_attack_level, h_min_range, h_accuracy_dispersion, h_attack_graphic, h_displayed_melee_armour, h_displayed_attack, h_displayed_range, h_displayed_reload_time, h_blast_damage, since_neg hv rfl, since_neg hv rfl, since_neg hv rfl, since_neg hv rfl, since_neg hv rfl⟩ ?_
    rintro b23 k23 b22 k22 b21 k21 b20 k20 b19 k19 b18 k18 b17 k17 b16 k16 b15 k15 b14 k14 b13 k13 b12 k12 b11 k11 b10 k10 b9 k9 b8 k8 b7 k7 b6 k6 b5 k5 b4 ⟨rfl, k4⟩ b3 k3 b2 ⟨rfl, k2⟩ b1 k1 b0 k0
    unfold Type50.toBytes
    rw [joinB_append]
    simp only [List.cons_append, List.nil_append, hg, Bool.false_eq_true, if_false]
    exact joinB_cons_ok k0 (joinB_cons_ok k1 (joinB_cons_ok k2 (joinB_cons_ok k3 (joinB_cons_ok k4 (joinB_cons_ok k5 (joinB_cons_ok k6 (joinB_cons_ok k7 (joinB_cons_ok k8 (joinB_cons_ok k9 (joinB_cons_ok k10 (joinB_cons_ok k11 (joinB_cons_ok k12 (joinB_cons_ok k13 (joinB_cons_ok k14 (joinB_cons_ok k15 (joinB_cons_ok k16 (joinB_cons_ok k17 (joinB_cons_ok k18 (joinB_cons_ok k19 (joinB_cons_ok k20 (joinB_cons_ok k21 (joinB_cons_ok k22 (joinB_cons_ok k23 rfl)))))))))))))))))))))))

end Genie
