import Verif.Proof.Containers
import Verif.Spec.Records
/-! # Write-read and read-write lemmas of the plain records (TechTree); generated by `tools/gen_records.py` -/

namespace Genie

theorem ResearchResourceCost.rw {v : Version} {x : ResearchResourceCost} (h : ResearchResourceCost.WF v x) :
    RW v ResearchResourceCost.fromBytes (ResearchResourceCost.toBytes v x) x := by
  obtain ⟨x_type, x_amount, x_flag⟩ := x
  obtain ⟨h_type, h_amount, h_flag⟩ := h
  dsimp only at h_type h_amount h_flag
  unfold ResearchResourceCost.fromBytes ResearchResourceCost.toBytes
  refine RW.bind (RW.int16 h_type) ?_
  refine RW.bind (RW.int16 h_amount) ?_
  refine RW.bind (RW.int8 h_flag) ?_
  exact RW.pure rfl

theorem ResearchResourceCost.good (v : Version) :
    Good v ResearchResourceCost.fromBytes (ResearchResourceCost.WF v) (fun x bs => ResearchResourceCost.toBytes v x = .ok bs) := by
  unfold ResearchResourceCost.fromBytes
  refine Good.bind Good.int16 fun type h_type => ?_
  refine Good.bind Good.int16 fun amount h_amount => ?_
  refine Good.bind Good.int8 fun flag h_flag => ?_
  refine Good.pure ⟨h_type, h_amount, h_flag⟩ ?_
  rintro b2 k2 b1 k1 b0 k0
  unfold ResearchResourceCost.toBytes
  exact joinB_cons_ok k0 (joinB_cons_ok k1 (joinB_cons_ok k2 rfl))

theorem ResearchLocation.rw {v : Version} {x : ResearchLocation} (h : ResearchLocation.WF v x) :
    RW v ResearchLocation.fromBytes (ResearchLocation.toBytes v x) x := by
  obtain ⟨x_location_id, x_research_time, x_button_id, x_hot_key_id⟩ := x
  obtain ⟨h_location_id, h_research_time, h_button_id, h_hot_key_id⟩ := h
  dsimp only at h_location_id h_research_time h_button_id h_hot_key_id
  unfold ResearchLocation.fromBytes ResearchLocation.toBytes
  refine RW.bind (RW.int16 h_location_id) ?_
  refine RW.bind (RW.int16 h_research_time) ?_
  refine RW.bind (RW.int8 h_button_id) ?_
  refine RW.bind (RW.int32 h_hot_key_id) ?_
  exact RW.pure rfl

theorem ResearchLocation.good (v : Version) :
    Good v ResearchLocation.fromBytes (ResearchLocation.WF v) (fun x bs => ResearchLocation.toBytes v x = .ok bs) := by
  unfold ResearchLocation.fromBytes
  refine Good.bind Good.int16 fun location_id h_location_id => ?_
  refine Good.bind Good.int16 fun research_time h_research_time => ?_
  refine Good.bind Good.int8 fun button_id h_button_id => ?_
  refine Good.bind Good.int32 fun hot_key_id h_hot_key_id => ?_
  refine Good.pure ⟨h_location_id, h_research_time, h_button_id, h_hot_key_id⟩ ?_
  rintro b3 k3 b2 k2 b1 k1 b0 k0
  unfold ResearchLocation.toBytes
  exact joinB_cons_ok k0 (joinB_cons_ok k1 (joinB_cons_ok k2 (joinB_cons_ok k3 rfl)))

theorem Common.rw {v : Version} {x : Common} (h : Common.WF v x) :
    RW v Common.fromBytes (Common.toBytes v x) x := by
  obtain ⟨x_slots_used, x_unit_research, x_mode⟩ := x
  obtain ⟨h_slots_used, h_unit_research, h_mode⟩ := h
  dsimp only at h_slots_used h_unit_research h_mode
  unfold Common.fromBytes Common.toBytes
  refine RW.bind (RW.int32 h_slots_used) ?_
  refine RW.bind (RW.int32Array10 h_unit_research) ?_
  refine RW.bind (RW.int32Array10 h_mode) ?_
  exact RW.pure rfl

theorem Common.good (v : Version) :
    Good v Common.fromBytes (Common.WF v) (fun x bs => Common.toBytes v x = .ok bs) := by
  unfold Common.fromBytes
  refine Good.bind Good.int32 fun slots_used h_slots_used => ?_
  refine Good.bind Good.int32Array10 fun unit_research h_unit_research => ?_
  refine Good.bind Good.int32Array10 fun mode h_mode => ?_
  refine Good.pure ⟨h_slots_used, h_unit_research, h_mode⟩ ?_
  rintro b2 k2 b1 k1 b0 k0
  unfold Common.toBytes
  exact joinB_cons_ok k0 (joinB_cons_ok k1 (joinB_cons_ok k2 rfl))

theorem TechTreeAge.rw {v : Version} {x : TechTreeAge} (h : TechTreeAge.WF v x) :
    RW v TechTreeAge.fromBytes (TechTreeAge.toBytes v x) x := by
  obtain ⟨x_id, x_status, x_buildings, x_units, x_techs, x_common, x_num_building_levels, x_buildings_per_zone, x_group_length_per_zone, x_max_age_length, x_line_mode⟩ := x
  obtain ⟨h_id, h_status, h_buildings, h_units, h_techs, h_common, h_num_building_levels, h_buildings_per_zone, h_group_length_per_zone, h_max_age_length, h_line_mode⟩ := h
  dsimp only at h_id h_status h_buildings h_units h_techs h_common h_num_building_levels h_buildings_per_zone h_group_length_per_zone h_max_age_length h_line_mode
  unfold TechTreeAge.fromBytes TechTreeAge.toBytes
  refine RW.bind (RW.int32 h_id) ?_
  refine RW.bind (RW.int8 h_status) ?_
  refine RW.bind (RW.int8 (isU8_len h_buildings.1)) ?_
  refine RW.bind (RW.int32Array rfl h_buildings.2) ?_
  refine RW.bind (RW.int8 (isU8_len h_units.1)) ?_
  refine RW.bind (RW.int32Array rfl h_units.2) ?_
  refine RW.bind (RW.int8 (isU8_len h_techs.1)) ?_
  refine RW.bind (RW.int32Array rfl h_techs.2) ?_
  refine RW.bind (RW.class_ (Common.rw h_common)) ?_
  refine RW.bind (RW.int8 h_num_building_levels) ?_
  refine RW.bind (RW.int8Array10 h_buildings_per_zone) ?_
  refine RW.bind (RW.int8Array10 h_group_length_per_zone) ?_
  refine RW.bind (RW.int8 h_max_age_length) ?_
  refine RW.bind (RW.int32 h_line_mode) ?_
  exact RW.pure rfl

theorem TechTreeAge.good (v : Version) :
    Good v TechTreeAge.fromBytes (TechTreeAge.WF v) (fun x bs => TechTreeAge.toBytes v x = .ok bs) := by
  unfold TechTreeAge.fromBytes
  refine Good.bind Good.int32 fun id_ h_id_ => ?_
  refine Good.bind Good.int8 fun status h_status => ?_
  refine Good.bind Good.int8 fun buildings_count h_buildings_count => ?_
  refine Good.bind (Good.int32Array _) fun buildings h_buildings => ?_
  refine Good.bind Good.int8 fun units_count h_units_count => ?_
  refine Good.bind (Good.int32Array _) fun units h_units => ?_
  refine Good.bind Good.int8 fun techs_count h_techs_count => ?_
  refine Good.bind (Good.int32Array _) fun techs h_techs => ?_
  refine Good.bind (Good.class_ (Common.good v)) fun common h_common => ?_
  refine Good.bind Good.int8 fun num_building_levels h_num_building_levels => ?_
  refine Good.bind Good.int8Array10 fun buildings_per_zone h_buildings_per_zone => ?_
  refine Good.bind Good.int8Array10 fun group_length_per_zone h_group_length_per_zone => ?_
  refine Good.bind Good.int8 fun max_age_length h_max_age_length => ?_
  refine Good.bind Good.int32 fun line_mode h_line_mode => ?_
  refine Good.pure ⟨h_id_, h_status, upTo_u8 h_buildings_count h_buildings, upTo_u8 h_units_count h_units, upTo_u8 h_techs_count h_techs, h_common, h_num_building_levels, h_buildings_per_zone, h_group_length_per_zone, h_max_age_length, h_line_mode⟩ ?_
  rintro b13 k13 b12 k12 b11 k11 b10 k10 b9 k9 b8 k8 b7 ⟨rfl, k7⟩ b6 k6 b5 ⟨rfl, k5⟩ b4 k4 b3 ⟨rfl, k3⟩ b2 k2 b1 k1 b0 k0
  unfold TechTreeAge.toBytes
  exact joinB_cons_ok k0 (joinB_cons_ok k1 (joinB_cons_ok k2 (joinB_cons_ok k3 (joinB_cons_ok k4 (joinB_cons_ok k5 (joinB_cons_ok k6 (joinB_cons_ok k7 (joinB_cons_ok k8 (joinB_cons_ok k9 (joinB_cons_ok k10 (joinB_cons_ok k11 (joinB_cons_ok k12 (joinB_cons_ok k13 rfl)))))))))))))

theorem BuildingConnection.rw {v : Version} {x : BuildingConnection} (h : BuildingConnection.WF v x) :
    RW v BuildingConnection.fromBytes (BuildingConnection.toBytes v x) x := by
  obtain ⟨x_id, x_status, x_buildings, x_units, x_techs, x_common, x_location_in_age, x_units_techs_total, x_units_techs_first, x_line_mode, x_enabling_research⟩ := x
  obtain ⟨h_id, h_status, h_buildings, h_units, h_techs, h_common, h_location_in_age, h_units_techs_total, h_units_techs_first, h_line_mode, h_enabling_research⟩ := h
  dsimp only at h_id h_status h_buildings h_units h_techs h_common h_location_in_age h_units_techs_total h_units_techs_first h_line_mode h_enabling_research
  unfold BuildingConnection.fromBytes BuildingConnection.toBytes
  refine RW.bind (RW.int32 h_id) ?_
  refine RW.bind (RW.int8 h_status) ?_
  refine RW.bind (RW.int8 (isU8_len h_buildings.1)) ?_
  refine RW.bind (RW.int32Array rfl h_buildings.2) ?_
  refine RW.bind (RW.int8 (isU8_len h_units.1)) ?_
  refine RW.bind (RW.int32Array rfl h_units.2) ?_
  refine RW.bind (RW.int8 (isU8_len h_techs.1)) ?_
  refine RW.bind (RW.int32Array rfl h_techs.2) ?_
  refine RW.bind (RW.class_ (Common.rw h_common)) ?_
  refine RW.bind (RW.int8 h_location_in_age) ?_
  refine RW.bind (RW.int8Array5 h_units_techs_total) ?_
  refine RW.bind (RW.int8Array5 h_units_techs_first) ?_
  refine RW.bind (RW.int32 h_line_mode) ?_
  refine RW.bind (RW.int32 h_enabling_research) ?_
  exact RW.pure rfl

theorem BuildingConnection.good (v : Version) :
    Good v BuildingConnection.fromBytes (BuildingConnection.WF v) (fun x bs => BuildingConnection.toBytes v x = .ok bs) := by
  unfold BuildingConnection.fromBytes
  refine Good.bind Good.int32 fun id_ h_id_ => ?_
  refine Good.bind Good.int8 fun status h_status => ?_
  refine Good.bind Good.int8 fun buildings_count h_buildings_count => ?_
  refine Good.bind (Good.int32Array _) fun buildings h_buildings => ?_
  refine Good.bind Good.int8 fun units_count h_units_count => ?_
  refine Good.bind (Good.int32Array _) fun units h_units => ?_
  refine Good.bind Good.int8 fun techs_count h_techs_count => ?_
  refine Good.bind (Good.int32Array _) fun techs h_techs => ?_
  refine Good.bind (Good.class_ (Common.good v)) fun common h_common => ?_
  refine Good.bind Good.int8 fun location_in_age h_location_in_age => ?_
  refine Good.bind Good.int8Array5 fun units_techs_total h_units_techs_total => ?_
  refine Good.bind Good.int8Array5 fun units_techs_first h_units_techs_first => ?_
  refine Good.bind Good.int32 fun line_mode h_line_mode => ?_
  refine Good.bind Good.int32 fun enabling_research h_enabling_research => ?_
  refine Good.pure ⟨h_id_, h_status, upTo_u8 h_buildings_count h_buildings, upTo_u8 h_units_count h_units, upTo_u8 h_techs_count h_techs, h_common, h_location_in_age, h_units_techs_total, h_units_techs_first, h_line_mode, h_enabling_research⟩ ?_
  rintro b13 k13 b12 k12 b11 k11 b10 k10 b9 k9 b8 k8 b7 ⟨rfl, k7⟩ b6 k6 b5 ⟨rfl, k5⟩ b4 k4 b3 ⟨rfl, k3⟩ b2 k2 b1 k1 b0 k0
  unfold BuildingConnection.toBytes
  exact joinB_cons_ok k0 (joinB_cons_ok k1 (joinB_cons_ok k2 (joinB_cons_ok k3 (joinB_cons_ok k4 (joinB_cons_ok k5 (joinB_cons_ok k6 (joinB_cons_ok k7 (joinB_cons_ok k8 (joinB_cons_ok k9 (joinB_cons_ok k10 (joinB_cons_ok k11 (joinB_cons_ok k12 (joinB_cons_ok k13 rfl)))))))))))))

theorem UnitConnection.rw {v : Version} {x : UnitConnection} (h : UnitConnection.WF v x) :
    RW v UnitConnection.fromBytes (UnitConnection.toBytes v x) x := by
  obtain ⟨x_id, x_status, x_upper_building, x_common, x_vertical_line, x_units, x_location_in_age, x_required_research, x_line_mode, x_enabling_research⟩ := x
  obtain ⟨h_id, h_status, h_upper_building, h_common, h_vertical_line, h_units, h_location_in_age, h_required_research, h_line_mode, h_enabling_research⟩ := h
  dsimp only at h_id h_status h_upper_building h_common h_vertical_line h_units h_location_in_age h_required_research h_line_mode h_enabling_research
  unfold UnitConnection.fromBytes UnitConnection.toBytes
  refine RW.bind (RW.int32 h_id) ?_
  refine RW.bind (RW.int8 h_status) ?_
  refine RW.bind (RW.int32 h_upper_building) ?_
  refine RW.bind (RW.class_ (Common.rw h_common)) ?_
  refine RW.bind (RW.int32 h_vertical_line) ?_
  refine RW.bind (RW.int8 (isU8_len h_units.1)) ?_
  refine RW.bind (RW.int32Array rfl h_units.2) ?_
  refine RW.bind (RW.int32 h_location_in_age) ?_
  refine RW.bind (RW.int32 h_required_research) ?_
  refine RW.bind (RW.int32 h_line_mode) ?_
  refine RW.bind (RW.int32 h_enabling_research) ?_
  exact RW.pure rfl

theorem UnitConnection.good (v : Version) :
    Good v UnitConnection.fromBytes (UnitConnection.WF v) (fun x bs => UnitConnection.toBytes v x = .ok bs) := by
  unfold UnitConnection.fromBytes
  refine Good.bind Good.int32 fun id_ h_id_ => ?_
  refine Good.bind Good.int8 fun status h_status => ?_
  refine Good.bind Good.int32 fun upper_building h_upper_building => ?_
  refine Good.bind (Good.class_ (Common.good v)) fun common h_common => ?_
  refine Good.bind Good.int32 fun vertical_line h_vertical_line => ?_
  refine Good.bind Good.int8 fun units_count h_units_count => ?_
  refine Good.bind (Good.int32Array _) fun units h_units => ?_
  refine Good.bind Good.int32 fun location_in_age h_location_in_age => ?_
  refine Good.bind Good.int32 fun required_research h_required_research => ?_
  refine Good.bind Good.int32 fun line_mode h_line_mode => ?_
  refine Good.bind Good.int32 fun enabling_research h_enabling_research => ?_
  refine Good.pure ⟨h_id_, h_status, h_upper_building, h_common, h_vertical_line, upTo_u8 h_units_count h_units, h_location_in_age, h_required_research, h_line_mode, h_enabling_research⟩ ?_
  rintro b10 k10 b9 k9 b8 k8 b7 k7 b6 ⟨rfl, k6⟩ b5 k5 b4 k4 b3 k3 b2 k2 b1 k1 b0 k0
  unfold UnitConnection.toBytes
  exact joinB_cons_ok k0 (joinB_cons_ok k1 (joinB_cons_ok k2 (joinB_cons_ok k3 (joinB_cons_ok k4 (joinB_cons_ok k5 (joinB_cons_ok k6 (joinB_cons_ok k7 (joinB_cons_ok k8 (joinB_cons_ok k9 (joinB_cons_ok k10 rfl))))))))))

theorem ResearchConnection.rw {v : Version} {x : ResearchConnection} (h : ResearchConnection.WF v x) :
    RW v ResearchConnection.fromBytes (ResearchConnection.toBytes v x) x := by
  obtain ⟨x_id, x_status, x_upper_building, x_buildings, x_units, x_techs, x_common, x_vertical_line, x_location_in_age, x_line_mode⟩ := x
  obtain ⟨h_id, h_status, h_upper_building, h_buildings, h_units, h_techs, h_common, h_vertical_line, h_location_in_age, h_line_mode⟩ := h
  dsimp only at h_id h_status h_upper_building h_buildings h_units h_techs h_common h_vertical_line h_location_in_age h_line_mode
  unfold ResearchConnection.fromBytes ResearchConnection.toBytes
  refine RW.bind (RW.int32 h_id) ?_
  refine RW.bind (RW.int8 h_status) ?_
  refine RW.bind (RW.int32 h_upper_building) ?_
  refine RW.bind (RW.int8 (isU8_len h_buildings.1)) ?_
  refine RW.bind (RW.int32Array rfl h_buildings.2) ?_
  refine RW.bind (RW.int8 (isU8_len h_units.1)) ?_
  refine RW.bind (RW.int32Array rfl h_units.2) ?_
  refine RW.bind (RW.int8 (isU8_len h_techs.1)) ?_
  refine RW.bind (RW.int32Array rfl h_techs.2) ?_
  refine RW.bind (RW.class_ (Common.rw h_common)) ?_
  refine RW.bind (RW.int32 h_vertical_line) ?_
  refine RW.bind (RW.int32 h_location_in_age) ?_
  refine RW.bind (RW.int32 h_line_mode) ?_
  exact RW.pure rfl

theorem ResearchConnection.good (v : Version) :
    Good v ResearchConnection.fromBytes (ResearchConnection.WF v) (fun x bs => ResearchConnection.toBytes v x = .ok bs) := by
  unfold ResearchConnection.fromBytes
  refine Good.bind Good.int32 fun id_ h_id_ => ?_
  refine Good.bind Good.int8 fun status h_status => ?_
  refine Good.bind Good.int32 fun upper_building h_upper_building => ?_
  refine Good.bind Good.int8 fun buildings_count h_buildings_count => ?_
  refine Good.bind (Good.int32Array _) fun buildings h_buildings => ?_
  refine Good.bind Good.int8 fun units_count h_units_count => ?_
  refine Good.bind (Good.int32Array _) fun units h_units => ?_
  refine Good.bind Good.int8 fun techs_count h_techs_count => ?_
  refine Good.bind (Good.int32Array _) fun techs h_techs => ?_
  refine Good.bind (Good.class_ (Common.good v)) fun common h_common => ?_
  refine Good.bind Good.int32 fun vertical_line h_vertical_line => ?_
  refine Good.bind Good.int32 fun location_in_age h_location_in_age => ?_
  refine Good.bind Good.int32 fun line_mode h_line_mode => ?_
  refine Good.pure ⟨h_id_, h_status, h_upper_building, upTo_u8 h_buildings_count h_buildings, upTo_u8 h_units_count h_units, upTo_u8 h_techs_count h_techs, h_common, h_vertical_line, h_location_in_age, h_line_mode⟩ ?_
  rintro b12 k12 b11 k11 b10 k10 b9 k9 b8 ⟨rfl, k8⟩ b7 k7 b6 ⟨rfl, k6⟩ b5 k5 b4 ⟨rfl, k4⟩ b3 k3 b2 k2 b1 k1 b0 k0
  unfold ResearchConnection.toBytes
  exact joinB_cons_ok k0 (joinB_cons_ok k1 (joinB_cons_ok k2 (joinB_cons_ok k3 (joinB_cons_ok k4 (joinB_cons_ok k5 (joinB_cons_ok k6 (joinB_cons_ok k7 (joinB_cons_ok k8 (joinB_cons_ok k9 (joinB_cons_ok k10 (joinB_cons_ok k11 (joinB_cons_ok k12 rfl))))))))))))

theorem TechTree.rw {v : Version} {x : TechTree} (h : TechTree.WF v x) :
    RW v TechTree.fromBytes (TechTree.toBytes v x) x := by
  obtain ⟨x_total_unit_tech_groups, x_tech_tree_ages, x_building_connections, x_unit_connections, x_research_connections⟩ := x
  obtain ⟨h_total_unit_tech_groups, h_tech_tree_ages, h_building_connections, h_unit_connections, h_research_connections⟩ := h
  dsimp only at h_total_unit_tech_groups h_tech_tree_ages h_building_connections h_unit_connections h_research_connections
  unfold TechTree.fromBytes TechTree.toBytes
  refine RW.bind (RW.int8 (isU8_len h_tech_tree_ages.1)) ?_
  refine RW.bind (RW.int8 (isU8_len h_building_connections.1)) ?_
  refine RW.bind (RW.int8 (isU8_len h_unit_connections.1)) ?_
  refine RW.bind (RW.int8 (isU8_len h_research_connections.1)) ?_
  refine RW.bind (RW.int32 h_total_unit_tech_groups) ?_
  refine RW.bind (RW.classArray rfl fun y hy => TechTreeAge.rw (h_tech_tree_ages.2 y hy)) ?_
  refine RW.bind (RW.classArray rfl fun y hy => BuildingConnection.rw (h_building_connections.2 y hy)) ?_
  refine RW.bind (RW.classArray rfl fun y hy => UnitConnection.rw (h_unit_connections.2 y hy)) ?_
  refine RW.bind (RW.classArray rfl fun y hy => ResearchConnection.rw (h_research_connections.2 y hy)) ?_
  exact RW.pure rfl

theorem TechTree.good (v : Version) :
    Good v TechTree.fromBytes (TechTree.WF v) (fun x bs => TechTree.toBytes v x = .ok bs) := by
  unfold TechTree.fromBytes
  refine Good.bind Good.int8 fun age_count h_age_count => ?_
  refine Good.bind Good.int8 fun building_count h_building_count => ?_
  refine Good.bind Good.int8 fun unit_count h_unit_count => ?_
  refine Good.bind Good.int8 fun research_count h_research_count => ?_
  refine Good.bind Good.int32 fun total_unit_tech_groups h_total_unit_tech_groups => ?_
  refine Good.bind (Good.classArray _ (TechTreeAge.good v)) fun tech_tree_ages h_tech_tree_ages => ?_
  refine Good.bind (Good.classArray _ (BuildingConnection.good v)) fun building_connections h_building_connections => ?_
  refine Good.bind (Good.classArray _ (UnitConnection.good v)) fun unit_connections h_unit_connections => ?_
  refine Good.bind (Good.classArray _ (ResearchConnection.good v)) fun research_connections h_research_connections => ?_
  refine Good.pure ⟨h_total_unit_tech_groups, upTo_u8 h_age_count h_tech_tree_ages, upTo_u8 h_building_count h_building_connections, upTo_u8 h_unit_count h_unit_connections, upTo_u8 h_research_count h_research_connections⟩ ?_
  rintro b8 ⟨rfl, k8⟩ b7 ⟨rfl, k7⟩ b6 ⟨rfl, k6⟩ b5 ⟨rfl, k5⟩ b4 k4 b3 k3 b2 k2 b1 k1 b0 k0
  unfold TechTree.toBytes
  exact joinB_cons_ok k0 (joinB_cons_ok k1 (joinB_cons_ok k2 (joinB_cons_ok k3 (joinB_cons_ok k4 (joinB_cons_ok k5 (joinB_cons_ok k6 (joinB_cons_ok k7 (joinB_cons_ok k8 rfl))))))))

end Genie
