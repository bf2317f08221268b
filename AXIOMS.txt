Hyvr.C01_axes: propext, Classical.choice, Quot.sound
Hyvr.C01_counts: propext, Classical.choice, Quot.sound
Hyvr.C01_inside: propext, Classical.choice, Quot.sound
Hyvr.C02_unique_cell: propext, Classical.choice, Quot.sound
Hyvr.C02_meshgrid: propext, Classical.choice, Quot.sound
Hyvr.C02_centered: propext, Classical.choice, Quot.sound
Hyvr.C03_lower: propext, Classical.choice, Quot.sound
Hyvr.C03_higher: propext, Classical.choice, Quot.sound
Hyvr.C03_succeeds: propext, Classical.choice, Quot.sound
Hyvr.C03_idempotent: propext, Classical.choice, Quot.sound
Hyvr.C04_bounds: propext, Classical.choice, Quot.sound
Hyvr.C04_attained: propext, Classical.choice, Quot.sound
Hyvr.C05_strata: propext, Classical.choice, Quot.sound
Hyvr.C06_aes: propext, Classical.choice, Quot.sound
Hyvr.C06_surfaces_kept: propext, Classical.choice, Quot.sound
Hyvr.C07_top_partial: propext, Classical.choice, Quot.sound
Hyvr.C07_top_refuted: propext, Classical.choice, Quot.sound
Hyvr.C07_cells_above: propext, Classical.choice, Quot.sound
Hyvr.C08_terminates: propext, Classical.choice, Quot.sound
Hyvr.C08_count: propext, Classical.choice, Quot.sound
Hyvr.C08_count_ceil: propext, Classical.choice, Quot.sound
Hyvr.C08_diverges: propext, Classical.choice, Quot.sound
Hyvr.C09_extents: propext, Classical.choice, Quot.sound
Hyvr.C09_skip: propext, Classical.choice, Quot.sound
Hyvr.C10_consistent: propext, Classical.choice, Quot.sound
Hyvr.C100_elements: propext, Classical.choice, Quot.sound
Hyvr.C101_count: propext, Classical.choice, Quot.sound
Hyvr.C101_types: propext, Classical.choice, Quot.sound
Hyvr.C101_bottoms: propext, Classical.choice, Quot.sound
Hyvr.C101_ini: propext, Classical.choice, Quot.sound
Hyvr.C102_cells_partial: propext, Classical.choice, Quot.sound
Hyvr.C102_declared_partial: propext, Classical.choice, Quot.sound
Hyvr.C28_refuted: propext, Classical.choice, Quot.sound
Hyvr.C103_declared: propext, Classical.choice, Quot.sound
Hyvr.C103_dips: propext, Classical.choice, Quot.sound
Hyvr.C104_no_exception: propext, Classical.choice, Quot.sound
Hyvr.C104_finishes: propext, Classical.choice, Quot.sound
Hyvr.C105_troughs: propext, Classical.choice, Quot.sound
Hyvr.C106_channels: propext, Classical.choice, Quot.sound
Hyvr.C107_sheets: propext, Classical.choice, Quot.sound
Hyvr.C108_no_exception: propext, Classical.choice, Quot.sound
Hyvr.C108_finishes: propext, Classical.choice, Quot.sound
Hyvr.C108_facies: propext, Classical.choice, Quot.sound
Hyvr.C109_partial: propext, Classical.choice, Quot.sound
Hyvr.C109_positive: propext, Classical.choice, Quot.sound
Hyvr.C109_background: propext, Classical.choice, Quot.sound
Hyvr.C109_refuted: propext, Classical.choice, Quot.sound
Hyvr.C109_cell_refuted: propext, Classical.choice, Quot.sound
Hyvr.C11_monotone: propext, Classical.choice, Quot.sound
Hyvr.C110_unused: propext, Classical.choice, Quot.sound
Hyvr.C110_documented: propext, Classical.choice, Quot.sound
Hyvr.C111_complete: propext, Classical.choice, Quot.sound
Hyvr.C111_interrupted: propext, Classical.choice, Quot.sound
Hyvr.C111_alone: propext, Classical.choice, Quot.sound
Hyvr.C112_success: propext, Classical.choice, Quot.sound
Hyvr.C112_failure: propext, Classical.choice, Quot.sound
Hyvr.C112_rejected: propext, Classical.choice, Quot.sound
Hyvr.C112_complete: propext, Classical.choice, Quot.sound
Hyvr.C113_same: propext, Classical.choice, Quot.sound
Hyvr.C113_no_exception: propext, Classical.choice, Quot.sound
Hyvr.C113_finishes: propext, Classical.choice, Quot.sound
Hyvr.C114_fine_partial: propext, Classical.choice, Quot.sound
Hyvr.C114_choice: propext, Classical.choice, Quot.sound
Hyvr.C114_no_exception: propext, Classical.choice, Quot.sound
Hyvr.C115_parsed: propext, Classical.choice, Quot.sound
Hyvr.C115_run: propext, Classical.choice, Quot.sound
Hyvr.C116_files: propext, Classical.choice, Quot.sound
Hyvr.C116_refuted: propext, Classical.choice, Quot.sound
Hyvr.C117_partial: propext, Classical.choice, Quot.sound
Hyvr.C117_refuted: propext, Classical.choice, Quot.sound
Hyvr.C118_sheets: propext, Classical.choice, Quot.sound
Hyvr.C118_strata: propext, Classical.choice, Quot.sound
Hyvr.C118_cake: propext, Classical.choice, Quot.sound
Hyvr.C119_tensor: propext, Classical.choice, Quot.sound
Hyvr.C119_axes: propext, Classical.choice, Quot.sound
Hyvr.C119_partial: propext, Classical.choice, Quot.sound
Hyvr.C119_refuted: propext, Classical.choice, Quot.sound
Hyvr.C12_memoryless: propext, Classical.choice, Quot.sound
Hyvr.C12_unordered_refuted: propext
Hyvr.C120_realisation: propext, Classical.choice, Quot.sound
Hyvr.C120_run: propext, Classical.choice, Quot.sound
Hyvr.C121_partial: propext, Classical.choice, Quot.sound
Hyvr.C121_tensor: propext, Classical.choice, Quot.sound
Hyvr.C121_mirror: propext, Classical.choice, Quot.sound
Hyvr.C121_dip_refuted: propext, Classical.choice, Quot.sound
Hyvr.C121_width_refuted: propext, Classical.choice, Quot.sound
Hyvr.C122_partial: propext, Classical.choice, Quot.sound
Hyvr.C122_sheets_refuted: propext, Classical.choice, Quot.sound
Hyvr.C122_channels_refuted: propext, Classical.choice, Quot.sound
Hyvr.C123_cells_partial: propext, Classical.choice, Quot.sound
Hyvr.C123_parameters_partial: propext, Classical.choice, Quot.sound
Hyvr.C123_refuted: propext, Classical.choice, Quot.sound
Hyvr.C124_types: propext, Classical.choice, Quot.sound
Hyvr.C125_partial: propext, Classical.choice, Quot.sound
Hyvr.C125_specsim_partial: propext, Classical.choice, Quot.sound
Hyvr.C125_elevations: propext, Classical.choice, Quot.sound
Hyvr.C125_parameters: propext, Classical.choice, Quot.sound
Hyvr.C125_channels_refuted: propext, Classical.choice, Quot.sound
Hyvr.C126: propext, Classical.choice, Quot.sound
Hyvr.C127_structure: propext, Classical.choice, Quot.sound
Hyvr.C127_partial: propext, Classical.choice, Quot.sound
Hyvr.C127_sheets: propext, Classical.choice, Quot.sound
Hyvr.C127_refuted: propext, Classical.choice, Quot.sound
Hyvr.C127_channels_refuted: propext
Hyvr.C128: propext, Classical.choice, Quot.sound
Hyvr.C129_surely: propext, Classical.choice, Quot.sound
Hyvr.C129_endless: propext, Classical.choice, Quot.sound
Hyvr.C129_still: propext, Classical.choice, Quot.sound
Hyvr.C13_assigned_partial: propext, Classical.choice, Quot.sound
Hyvr.C13_off_contacts_partial: propext, Classical.choice, Quot.sound
Hyvr.C13_contact_refuted: propext, Classical.choice, Quot.sound
Hyvr.C130_probability: propext, Classical.choice, Quot.sound
Hyvr.C130_frequency: propext, Classical.choice, Quot.sound
Hyvr.C131_complete: propext, Classical.choice, Quot.sound
Hyvr.C131_status: propext, Classical.choice, Quot.sound
Hyvr.C131_files: propext, Classical.choice, Quot.sound
Hyvr.C132_roundtrip: propext, Classical.choice, Quot.sound
Hyvr.C132_rerun: propext, Classical.choice, Quot.sound
Hyvr.C132_copy: propext, Classical.choice, Quot.sound
Hyvr.C132_left: propext, Classical.choice, Quot.sound
Hyvr.C132_again: propext, Classical.choice, Quot.sound
Hyvr.C133_layout: propext, Classical.choice, Quot.sound
Hyvr.C133_values: propext, Classical.choice, Quot.sound
Hyvr.C133_bom: propext, Classical.choice, Quot.sound
Hyvr.C133_comments: propext, Classical.choice, Quot.sound
Hyvr.C133_last: propext, Classical.choice, Quot.sound
Hyvr.C133_percent: propext, Classical.choice, Quot.sound
Hyvr.C133_lone: propext, Classical.choice, Quot.sound
Hyvr.C133_missing: propext, Classical.choice, Quot.sound
Hyvr.C133_references: propext, Classical.choice, Quot.sound
Hyvr.C133_rejected: propext, Classical.choice, Quot.sound
Hyvr.C133_twice: propext, Classical.choice, Quot.sound
Hyvr.C133_repeated: propext, Classical.choice, Quot.sound
Hyvr.C134_endless: propext, Classical.choice, Quot.sound
Hyvr.C134_silent: propext, Classical.choice, Quot.sound
Hyvr.C134_thin: propext, Classical.choice, Quot.sound
Hyvr.C135: propext, Classical.choice, Quot.sound
Hyvr.C135_channels: propext, Classical.choice, Quot.sound
Hyvr.C136: propext, Classical.choice, Quot.sound
Hyvr.C136_density: propext, Classical.choice, Quot.sound
Hyvr.C136_number: propext, Classical.choice, Quot.sound
Hyvr.C137_values: propext, Classical.choice, Quot.sound
Hyvr.C137_law: propext, Classical.choice, Quot.sound
Hyvr.C138: propext, Classical.choice, Quot.sound
Hyvr.C138_clear: propext, Classical.choice, Quot.sound
Hyvr.C139: propext, Classical.choice, Quot.sound
Hyvr.C139_layers: propext, Classical.choice, Quot.sound
Hyvr.C14_priority: propext, Classical.choice, Quot.sound
Hyvr.C140_more: propext, Classical.choice, Quot.sound
Hyvr.C141_anew: propext, Classical.choice, Quot.sound
Hyvr.C141_again: propext, Classical.choice, Quot.sound
Hyvr.C142_layout: propext, Classical.choice, Quot.sound
Hyvr.C143_formats: propext, Classical.choice, Quot.sound
Hyvr.C144_moved: propext, Classical.choice, Quot.sound
Hyvr.C145_renamed: propext, Classical.choice, Quot.sound
Hyvr.C146_outside: propext, Classical.choice, Quot.sound
Hyvr.C146_kept: propext, Classical.choice, Quot.sound
Hyvr.C146_beside: propext, Classical.choice, Quot.sound
Hyvr.C146_order: propext, Classical.choice, Quot.sound
Hyvr.C15_background: propext, Classical.choice, Quot.sound
Hyvr.C15_written: propext, Classical.choice, Quot.sound
Hyvr.C51_background: propext, Classical.choice, Quot.sound
Hyvr.C51_refuted: propext, Classical.choice, Quot.sound
Hyvr.C16_object_numbers_partial: propext, Classical.choice, Quot.sound
Hyvr.C16_ha_zero: propext, Classical.choice, Quot.sound
Hyvr.C16_ha_refuted: propext, Classical.choice, Quot.sound
Hyvr.C17_ae_numbers: propext, Quot.sound
Hyvr.C17_hat: propext, Classical.choice, Quot.sound
Hyvr.C17_hat_error: propext, Classical.choice, Quot.sound
Hyvr.C18_columns: propext, Classical.choice, Quot.sound
Hyvr.C18_cells: propext, Classical.choice, Quot.sound
Hyvr.C18_local: propext, Quot.sound
Hyvr.C19_membership: propext, Classical.choice, Quot.sound
Hyvr.C19_range: propext, Classical.choice, Quot.sound
Hyvr.C20_wrap_partial: propext, Classical.choice, Quot.sound
Hyvr.C20_far_refuted: propext, Classical.choice, Quot.sound
Hyvr.C20_wide_refuted: propext, Classical.choice, Quot.sound
Hyvr.C21_trough: propext, Classical.choice, Quot.sound
Hyvr.C21_trough_no_lag: propext, Classical.choice, Quot.sound
Hyvr.C21_channel: propext, Classical.choice, Quot.sound
Hyvr.C21_channel_no_lag: propext, Classical.choice, Quot.sound
Hyvr.C22_table: propext, Classical.choice, Quot.sound
Hyvr.C23_bounds: propext, Classical.choice, Quot.sound
Hyvr.C23_axis: propext, Classical.choice, Quot.sound
Hyvr.C23_normal_partial: propext, Classical.choice, Quot.sound
Hyvr.C23_dip_sign_refuted: propext, Classical.choice, Quot.sound
Hyvr.C23_rotation_refuted: propext, Classical.choice, Quot.sound
Hyvr.C24_positions: propext, Classical.choice, Quot.sound
Hyvr.C24_migration: propext, Classical.choice, Quot.sound
Hyvr.C24_within: propext, Classical.choice, Quot.sound
Hyvr.C24_troughs: propext, Classical.choice, Quot.sound
Hyvr.C25_trend: propext, Classical.choice, Quot.sound
Hyvr.C26_parabola: propext, Classical.choice, Quot.sound
Hyvr.C26_range: propext, Classical.choice, Quot.sound
Hyvr.C27_cache_partial: propext, Classical.choice, Quot.sound
Hyvr.C27_refuted: propext, Classical.choice, Quot.sound
Hyvr.C28_lookup_partial: propext, Classical.choice, Quot.sound
Hyvr.C29_levels: propext, Classical.choice, Quot.sound
Hyvr.C29_descending: propext, Classical.choice, Quot.sound
Hyvr.C29_terminates: propext, Classical.choice, Quot.sound
Hyvr.C30_chain: propext, Classical.choice, Quot.sound
Hyvr.C30_isometry: propext, Classical.choice, Quot.sound
Hyvr.C30_trim: propext, Classical.choice, Quot.sound
Hyvr.C31_terminates: propext, Classical.choice, Quot.sound
Hyvr.C31_picks: propext, Classical.choice, Quot.sound
Hyvr.C31_spacing: propext, Classical.choice, Quot.sound
Hyvr.C31_success: propext, Classical.choice, Quot.sound
Hyvr.C32_sheets_partial: propext, Classical.choice, Quot.sound
Hyvr.C32_outside_refuted: propext, Classical.choice, Quot.sound
Hyvr.C32_massive: propext, Quot.sound
Hyvr.C32_thickness: propext, Classical.choice, Quot.sound
Hyvr.C32_boundaries: propext, Classical.choice, Quot.sound
Hyvr.C32_between: propext, Classical.choice, Quot.sound
Hyvr.C33_table_partial: propext, Classical.choice, Quot.sound
Hyvr.C33_thick_refuted: propext, Classical.choice, Quot.sound
Hyvr.C33_failure_refuted: propext, Classical.choice, Quot.sound
Hyvr.C34_sequence: propext, Classical.choice, Quot.sound
Hyvr.C34_errors: propext, Classical.choice, Quot.sound
Hyvr.C35_lookup: propext, Classical.choice, Quot.sound
Hyvr.C35_total: propext, Classical.choice, Quot.sound
Hyvr.C36_lookup_partial: propext, Classical.choice, Quot.sound
Hyvr.C36_total_partial: propext, Classical.choice, Quot.sound
Hyvr.C36_refuted: propext, Classical.choice, Quot.sound
Hyvr.C36_ini_refuted: propext, Classical.choice, Quot.sound
Hyvr.C37_object_partial: propext, Classical.choice, Quot.sound
Hyvr.C37_background: propext, Classical.choice, Quot.sound
Hyvr.C37_positive: propext, Classical.choice, Quot.sound
Hyvr.C37_total: propext, Classical.choice, Quot.sound
Hyvr.C37_refuted: propext, Classical.choice, Quot.sound
Hyvr.C38_factor: propext, Classical.choice, Quot.sound
Hyvr.C38_vertical_partial: propext, Classical.choice, Quot.sound
Hyvr.C38_longitudinal_lost: propext, Classical.choice, Quot.sound
Hyvr.C38_refuted: propext, Classical.choice, Quot.sound
Hyvr.C39_formula: propext, Classical.choice, Quot.sound
Hyvr.C39_array: propext, Classical.choice, Quot.sound
Hyvr.C39_rot_orthogonal: propext, Classical.choice, Quot.sound
Hyvr.C40_symmetric: propext, Classical.choice, Quot.sound
Hyvr.C40_posDef: propext, Classical.choice, Quot.sound
Hyvr.C40_det_trace: propext, Classical.choice, Quot.sound
Hyvr.C40_normal: propext, Classical.choice, Quot.sound
Hyvr.C40_plane: propext, Classical.choice, Quot.sound
Hyvr.C40_isotropic: propext, Classical.choice, Quot.sound
Hyvr.C40_zero_dip: propext, Classical.choice, Quot.sound
Hyvr.C41_scatter: propext, Classical.choice, Quot.sound
Hyvr.C41_empty: propext, Classical.choice, Quot.sound
Hyvr.C41_unique: propext, Classical.choice, Quot.sound
Hyvr.C42_mean: propext, Classical.choice, Quot.sound
Hyvr.C42_total: propext, Classical.choice, Quot.sound
Hyvr.C43_roundtrip: propext, Classical.choice, Quot.sound
Hyvr.C43_strings: propext, Classical.choice, Quot.sound
Hyvr.C43_empty: propext, Classical.choice, Quot.sound
Hyvr.C44_fixed_partial: propext, Classical.choice, Quot.sound
Hyvr.C44_perEntry_partial: propext, Classical.choice, Quot.sound
Hyvr.C44_table_partial: propext, Classical.choice, Quot.sound
Hyvr.C44_matrix_partial: propext, Classical.choice, Quot.sound
Hyvr.C44_like_partial: propext, Classical.choice, Quot.sound
Hyvr.C44_accepts: propext, Classical.choice, Quot.sound
Hyvr.C44_length: propext, Classical.choice, Quot.sound
Hyvr.C44_any: propext, Classical.choice, Quot.sound
Hyvr.C44_refuted: propext, Classical.choice, Quot.sound
Hyvr.C45_scalar_partial: propext, Classical.choice, Quot.sound
Hyvr.C45_inner: propext, Classical.choice, Quot.sound
Hyvr.C45_like: propext, Classical.choice, Quot.sound
Hyvr.C45_letters: propext, Classical.choice, Quot.sound
Hyvr.C45_scalar_table: propext, Classical.choice, Quot.sound
Hyvr.C45_refuted: propext, Classical.choice, Quot.sound
Hyvr.C46_present: propext, Classical.choice, Quot.sound
Hyvr.C46_required: propext, Classical.choice, Quot.sound
Hyvr.C46_missing: propext, Classical.choice, Quot.sound
Hyvr.C46_kept: propext, Classical.choice, Quot.sound
Hyvr.C46_alternative_removed: propext, Classical.choice, Quot.sound
Hyvr.C47_true: propext, Classical.choice, Quot.sound
Hyvr.C47_false: propext, Classical.choice, Quot.sound
Hyvr.C47_error: propext, Classical.choice, Quot.sound
Hyvr.C47_option: propext, Classical.choice, Quot.sound
Hyvr.C48_accepted: propext, Classical.choice, Quot.sound
Hyvr.C48_usable_partial: propext, Classical.choice, Quot.sound
Hyvr.C48_refuted: propext, Classical.choice, Quot.sound
Hyvr.C49_numbers: propext, Classical.choice, Quot.sound
Hyvr.C49_undeclared: propext, Classical.choice, Quot.sound
Hyvr.C49_names: propext, Classical.choice, Quot.sound
Hyvr.C49_names_numbers: propext, Classical.choice, Quot.sound
Hyvr.C49_positions: propext, Classical.choice, Quot.sound
Hyvr.C49_element: propext, Classical.choice, Quot.sound
Hyvr.C49_element_names: propext, Classical.choice, Quot.sound
Hyvr.C50_partial: propext, Classical.choice, Quot.sound
Hyvr.C50_bulb: propext, Classical.choice, Quot.sound
Hyvr.C50_others: propext, Classical.choice, Quot.sound
Hyvr.C50_error: propext, Classical.choice, Quot.sound
Hyvr.C50_refuted: propext, Classical.choice, Quot.sound
Hyvr.C51_element_partial: propext, Classical.choice, Quot.sound
Hyvr.C51_trough: propext, Classical.choice, Quot.sound
Hyvr.C51_element_contact: propext, Classical.choice, Quot.sound
Hyvr.C51_strata: propext, Classical.choice, Quot.sound
Hyvr.C51_strata_contacts: propext, Classical.choice, Quot.sound
Hyvr.C51_run: propext, Quot.sound
Hyvr.C51_model: propext, Quot.sound
Hyvr.C51_display: propext, Classical.choice, Quot.sound
Hyvr.C51_channel_refuted: propext, Classical.choice, Quot.sound
Hyvr.C51_numbers: propext, Classical.choice, Quot.sound
Hyvr.C52_options: propext, Classical.choice, Quot.sound
Hyvr.C52_contacts: propext, Classical.choice, Quot.sound
Hyvr.C52_contact_texts: propext, Classical.choice, Quot.sound
Hyvr.C52_tables: propext, Classical.choice, Quot.sound
Hyvr.C52_surfaces: propext, Classical.choice, Quot.sound
Hyvr.C52_formats: propext, Classical.choice, Quot.sound
Hyvr.C53_name: propext, Classical.choice, Quot.sound
Hyvr.C53_given: propext, Classical.choice, Quot.sound
Hyvr.C53_rundir_partial: propext, Classical.choice, Quot.sound
Hyvr.C53_backup: propext, Classical.choice, Quot.sound
Hyvr.C53_modeldir_refuted: propext, Classical.choice, Quot.sound
Hyvr.C53_extension_refuted: propext, Classical.choice, Quot.sound
Hyvr.C53_dot_refuted: propext, Classical.choice, Quot.sound
Hyvr.C53_underscore_refuted: propext, Classical.choice, Quot.sound
Hyvr.C54_outside: propext, Classical.choice, Quot.sound
Hyvr.C54_refused: propext, Classical.choice, Quot.sound
Hyvr.C54_replaced_partial: propext, Classical.choice, Quot.sound
Hyvr.C54_succeeds: propext, Classical.choice, Quot.sound
Hyvr.C54_special_refuted: propext, Classical.choice, Quot.sound
Hyvr.C55_partial: propext, Classical.choice, Quot.sound
Hyvr.C55_ignored: propext, Classical.choice, Quot.sound
Hyvr.C55_refuted: propext, Classical.choice, Quot.sound
Hyvr.C55_command_line: propext, Classical.choice, Quot.sound
Hyvr.C56_partial: propext, Classical.choice, Quot.sound
Hyvr.C56_gap_refuted: propext, Classical.choice, Quot.sound
Hyvr.C56_refuted: propext, Classical.choice, Quot.sound
Hyvr.C57_names: propext, Classical.choice, Quot.sound
Hyvr.C57_distinct: propext, Classical.choice, Quot.sound
Hyvr.C57_complete: propext, Classical.choice, Quot.sound
Hyvr.C57_interrupted: propext, Classical.choice, Quot.sound
Hyvr.C58_missing: propext, Classical.choice, Quot.sound
Hyvr.C58_failure: propext, Classical.choice, Quot.sound
Hyvr.C58_unknown: propext, Classical.choice, Quot.sound
Hyvr.C58_reported: propext, Classical.choice, Quot.sound
Hyvr.C59_midway: propext, Classical.choice, Quot.sound
Hyvr.C59_count_iff: propext, Classical.choice, Quot.sound
Hyvr.C59_partial: propext, Classical.choice, Quot.sound
Hyvr.C59_refuted: propext, Classical.choice, Quot.sound
Hyvr.C60_layers: propext, Classical.choice, Quot.sound
Hyvr.C60_values: propext, Classical.choice, Quot.sound
Hyvr.C60_partial: propext, Classical.choice, Quot.sound
Hyvr.C60_refuted: propext, Classical.choice, Quot.sound
Hyvr.C61_widths: propext, Classical.choice, Quot.sound
Hyvr.C61_widths_refuted: propext, Classical.choice, Quot.sound
Hyvr.C61_bottoms_partial: propext, Classical.choice, Quot.sound
Hyvr.C61_bottoms_refuted: propext, Classical.choice, Quot.sound
Hyvr.C61_heads_partial: propext, Classical.choice, Quot.sound
Hyvr.C61_heads_refuted: propext, Classical.choice, Quot.sound
Hyvr.C61_faces_refuted: propext, Classical.choice, Quot.sound
Hyvr.C62_rows: propext, Classical.choice, Quot.sound
Hyvr.C62_bijection: propext
Hyvr.C63_independent: propext, Quot.sound
Hyvr.C64_interval: propext, Classical.choice, Quot.sound
Hyvr.C64_choice: propext, Classical.choice, Quot.sound
Hyvr.C64_relative: propext, Classical.choice, Quot.sound
Hyvr.C64_errors: propext, Classical.choice, Quot.sound
Hyvr.C65_zero: propext, Classical.choice, Quot.sound
Hyvr.C65_linear: propext, Classical.choice, Quot.sound
Hyvr.C65_bounded: propext, Classical.choice, Quot.sound
Hyvr.C65_decay: propext, Classical.choice, Quot.sound
Hyvr.C66_outside: propext, Classical.choice, Quot.sound
Hyvr.C66_partial: propext, Classical.choice, Quot.sound
Hyvr.C66_refuted: propext, Classical.choice, Quot.sound
Hyvr.C67_sheets_terminate: propext, Classical.choice, Quot.sound
Hyvr.C67_sheets_diverge: propext, Classical.choice, Quot.sound
Hyvr.C68_trough_partial: propext, Classical.choice, Quot.sound
Hyvr.C68_sheet_partial: propext, Classical.choice, Quot.sound
Hyvr.C68_trough_refuted: propext, Classical.choice, Quot.sound
Hyvr.C68_sheet_refuted: propext, Classical.choice, Quot.sound
Hyvr.C69_trough: propext, Classical.choice, Quot.sound
Hyvr.C69_sheet_partial: propext, Classical.choice, Quot.sound
Hyvr.C69_sheet_refuted: propext, Classical.choice, Quot.sound
Hyvr.C69_channel_refuted: propext, Classical.choice, Quot.sound
Hyvr.C70_trend_partial: propext, Classical.choice, Quot.sound
Hyvr.C70_refuted: propext, Classical.choice, Quot.sound
Hyvr.C71_refuted: propext, Classical.choice, Quot.sound
Hyvr.C72_azimuth_partial: propext, Classical.choice, Quot.sound
Hyvr.C72_massive_refuted: propext, Classical.choice, Quot.sound
Hyvr.C73_start_partial: propext, Classical.choice, Quot.sound
Hyvr.C73_refuted: propext, Classical.choice, Quot.sound
Hyvr.C74_names: propext, Classical.choice, Quot.sound
Hyvr.C74_structures: propext, Classical.choice, Quot.sound
Hyvr.C74_accepts: propext, Classical.choice, Quot.sound
Hyvr.C75_everywhere: propext, Classical.choice, Quot.sound
Hyvr.C75_refuted: propext, Classical.choice, Quot.sound
Hyvr.C76_lines: propext, Classical.choice, Quot.sound
Hyvr.C76_refuted: propext, Classical.choice, Quot.sound
Hyvr.C76_internal_lines: propext, Classical.choice, Quot.sound
Hyvr.C76_internal_refuted: propext, Classical.choice, Quot.sound
Hyvr.C77_cosine: propext, Classical.choice, Quot.sound
Hyvr.C77_exact: propext, Classical.choice, Quot.sound
Hyvr.C77_near_partial: propext, Classical.choice, Quot.sound
Hyvr.C77_internal: propext, Classical.choice, Quot.sound
Hyvr.C77_stationary_partial: propext, Classical.choice, Quot.sound
Hyvr.C77_periodic: propext, Classical.choice, Quot.sound
Hyvr.C77_refuted: propext, Classical.choice, Quot.sound
Hyvr.C78_chain_partial: propext, Classical.choice, Quot.sound
Hyvr.C78_refuted: propext, Quot.sound
Hyvr.C79_wellformed_partial: propext, Classical.choice, Quot.sound
Hyvr.C79_unterminated: propext, Classical.choice, Quot.sound
Hyvr.C79_refuted: propext, Classical.choice, Quot.sound
Hyvr.C80_models: propext, Classical.choice, Quot.sound
Hyvr.C80_invalid: propext, Classical.choice, Quot.sound
Hyvr.C81_valid: propext, Classical.choice, Quot.sound
Hyvr.C81_accepts: propext, Classical.choice, Quot.sound
Hyvr.C81_section: propext, Classical.choice, Quot.sound
Hyvr.C81_outputs: propext, Classical.choice, Quot.sound
Hyvr.C81_structure: propext, Classical.choice, Quot.sound
Hyvr.C82_partial: propext, Classical.choice, Quot.sound
Hyvr.C82_refuted: propext, Classical.choice, Quot.sound
Hyvr.C82_old_single: propext, Classical.choice, Quot.sound
Hyvr.C83_partial: propext, Classical.choice, Quot.sound
Hyvr.C83_refuted: propext, Classical.choice, Quot.sound
Hyvr.C84_partial: propext, Classical.choice, Quot.sound
Hyvr.C84_unknown: propext, Classical.choice, Quot.sound
Hyvr.C84_refuted: propext, Classical.choice, Quot.sound
Hyvr.C86_spacing: propext, Classical.choice, Quot.sound
Hyvr.C86_any: propext, Classical.choice, Quot.sound
Hyvr.C87_section: propext, Classical.choice, Quot.sound
Hyvr.C87_optional: propext, Classical.choice, Quot.sound
Hyvr.C88_tables: propext, Classical.choice, Quot.sound
Hyvr.C88_covers: propext, Classical.choice, Quot.sound
Hyvr.C89_partial: propext, Classical.choice, Quot.sound
Hyvr.C89_refuted: propext, Classical.choice, Quot.sound
Hyvr.C90_partial: propext, Classical.choice, Quot.sound
Hyvr.C90_refuted: propext, Classical.choice, Quot.sound
Hyvr.C91_missing: propext, Classical.choice, Quot.sound
Hyvr.C91_elements: propext, Classical.choice, Quot.sound
Hyvr.C91_refused: propext, Classical.choice, Quot.sound
Hyvr.C91_any: propext, Classical.choice, Quot.sound
Hyvr.C92_partial: propext, Classical.choice, Quot.sound
Hyvr.C92_start_partial: propext, Classical.choice, Quot.sound
Hyvr.C92_heads_refuted: propext, Classical.choice, Quot.sound
Hyvr.C92_unset_refuted: propext, Classical.choice, Quot.sound
Hyvr.C92_inflow_refuted: propext, Classical.choice, Quot.sound
Hyvr.C93_partial: propext, Classical.choice, Quot.sound
Hyvr.C93_refuted: propext, Classical.choice, Quot.sound
Hyvr.C94_partial: propext, Classical.choice, Quot.sound
Hyvr.C94_outside_partial: propext, Classical.choice, Quot.sound
Hyvr.C94_origin: propext, Classical.choice, Quot.sound
Hyvr.C94_default_refuted: propext, Classical.choice, Quot.sound
Hyvr.C94_refuted: propext, Classical.choice, Quot.sound
Hyvr.C95_ignored: propext, Classical.choice, Quot.sound
Hyvr.C95_refuted: propext, Classical.choice, Quot.sound
Hyvr.C96_rejected: propext, Classical.choice, Quot.sound
Hyvr.C96_untouched: propext, Classical.choice, Quot.sound
Hyvr.C97_partial: propext, Classical.choice, Quot.sound
Hyvr.C97_refuted: propext, Classical.choice, Quot.sound
Hyvr.C98_run: propext, Classical.choice, Quot.sound
Hyvr.C98_strata: propext, Classical.choice, Quot.sound
Hyvr.C98_normal: propext, Classical.choice, Quot.sound
Hyvr.C99_no_exception: propext, Classical.choice, Quot.sound
Hyvr.C99_finishes: propext, Classical.choice, Quot.sound
Hyvr.C99_ini_partial: propext, Classical.choice, Quot.sound
Hyvr.C99_ini_finishes_partial: propext, Classical.choice, Quot.sound
Hyvr.C99_weights_refuted: propext, Classical.choice, Quot.sound
Hyvr.C99_thickness_refuted: propext, Classical.choice, Quot.sound
