'Davs2.C01_escape_roundtrip_partial' depends on axioms: [propext, Quot.sound]
'Davs2.C01_escape_roundtrip_violated' depends on axioms: [propext, Quot.sound]
'Davs2.C01_no_growth' depends on axioms: [propext, Quot.sound]
'Davs2.C01_in_place' depends on axioms: [propext, Quot.sound]
'Davs2.C01_encoder_no_start_code' depends on axioms: [propext, Quot.sound]
'Davs2.C02_passthrough' depends on axioms: [propext, Quot.sound]
'Davs2.C02_passthrough_pattern' depends on axioms: [propext, Quot.sound]
'Davs2.C02_raw_units' depends on axioms: [propext, Quot.sound]
'Davs2.C03_ue_roundtrip' depends on axioms: [propext, Classical.choice, Quot.sound]
'Davs2.C04_se_roundtrip' depends on axioms: [propext, Classical.choice, Quot.sound]
'Davs2.C04_se_bijective' depends on axioms: [propext, Quot.sound]
'Davs2.C05_u_value' depends on axioms: [propext, Quot.sound]
'Davs2.C05_u_value32' depends on axioms: [propext, Quot.sound]
'Davs2.C05_u_split' depends on axioms: [propext, Classical.choice, Quot.sound]
'Davs2.C06_read_inside_partial' depends on axioms: [propext, Classical.choice, Quot.sound]
'Davs2.C06_read_bits_oob_iff' depends on axioms: [propext, Classical.choice, Quot.sound]
'Davs2.C06_read_inside_violated' depends on axioms: [propext, Classical.choice, Quot.sound]
'Davs2.C07_find_start_code' depends on axioms: [propext, Quot.sound]
'Davs2.C07_get_start_code_partial' depends on axioms: [propext, Quot.sound]
'Davs2.C07_get_start_code_violated' depends on axioms: [propext, Quot.sound]
'Davs2.C07_found_slice_header_partial' depends on axioms: [propext, Quot.sound]
'Davs2.C07_found_slice_header_violated' depends on axioms: [propext]
'Davs2.C08_pic_start_sound' depends on axioms: [propext, Quot.sound]
'Davs2.C08_pic_start_first_partial' depends on axioms: [propext, Quot.sound]
'Davs2.C08_cut_independent_partial' depends on axioms: [propext, Quot.sound]
'Davs2.C08_pic_start_violated' depends on axioms: [propext, Quot.sound]
'Davs2.C09_units_are_groups' depends on axioms: [propext, Classical.choice, Quot.sound]
'Davs2.C09_groups_concat' depends on axioms: [propext]
'Davs2.C09_group_boundaries' depends on axioms: [propext, Quot.sound]
'Davs2.C10_fits_partial' depends on axioms: [propext, Classical.choice, Quot.sound]
'Davs2.C10_fits_violated' depends on axioms: [propext, Classical.choice, Quot.sound]
'Davs2.C10_units_conserved' depends on axioms: [propext, Quot.sound]
'Davs2.Ir.C100_unparsed_partial' depends on axioms: [propext]
'Davs2.Ir.C100_violated' depends on axioms: [propext, Classical.choice, Quot.sound]
'Davs2.Sx.C101_carried_partial' depends on axioms: [propext, Classical.choice, Quot.sound]
'Davs2.Sx.C101_encoder_partial' depends on axioms: [propext, Classical.choice, Quot.sound]
'Davs2.Sx.C101_payload_partial' depends on axioms: [propext, Classical.choice, Quot.sound]
'Davs2.Cs.C101_picture_partial' depends on axioms: [propext, Classical.choice, Quot.sound]
'Davs2.Sx.C101_unique' depends on axioms: [propext, Classical.choice, Quot.sound]
'Davs2.Sx.C101_total' depends on axioms: [propext, Classical.choice, Quot.sound]
'Davs2.Sx.C101_violated' depends on axioms: [propext, Quot.sound]
'Davs2.Vp.C102_sse' depends on axioms: [propext, Classical.choice, Quot.sound]
'Davs2.Vp.C102_avx2_partial' depends on axioms: [propext, Classical.choice, Quot.sound]
'Davs2.Vp.C102_avx2_overrun_partial' depends on axioms: [propext, Classical.choice, Quot.sound]
'Davs2.Vp.C102_violated_rows' depends on axioms: [propext, Classical.choice, Quot.sound]
'Davs2.Vp.C102_violated_array' depends on axioms: [propext, Classical.choice, Quot.sound]
'Davs2.Vp.C102_violated_mask' depends on axioms: [propext, Classical.choice, Quot.sound]
'Davs2.Vc.C103_border' depends on axioms: [propext, Classical.choice, Quot.sound]
'Davs2.Vc.C103_border_plain' depends on axioms: [propext, Classical.choice, Quot.sound]
'Davs2.Vc.C103_sse' depends on axioms: [propext, Classical.choice, Quot.sound]
'Davs2.Vc.C103_avx2' depends on axioms: [propext, Classical.choice, Quot.sound]
'Davs2.Vc.C103_directional' depends on axioms: [propext, Classical.choice, Quot.sound]
'Davs2.Va.C104_same_as_c' depends on axioms: [propext, Classical.choice, Quot.sound]
'Davs2.Va.C104_samples' depends on axioms: [propext, Classical.choice, Quot.sound]
'Davs2.Va.C104_sizes' depends on axioms: [propext, Quot.sound]
'Davs2.Va.C104_bound_needed' depends on axioms: [propext, Quot.sound]
'Davs2.Si.C105_residual' depends on axioms: [propext, Classical.choice, Quot.sound]
'Davs2.Si.C105_samples' depends on axioms: [propext, Classical.choice, Quot.sound]
'Davs2.Si.C105_same_as_c' depends on axioms: [propext, Classical.choice, Quot.sound]
'Davs2.Si.C105_not_limited' depends on axioms: [propext, Classical.choice, Quot.sound]
'Davs2.Si.C105_where' depends on axioms: [propext]
'Davs2.Ma.C106_memcpy' depends on axioms: [propext, Classical.choice, Quot.sound]
'Davs2.Ma.C106_memcpy_aligned' depends on axioms: [propext, Classical.choice, Quot.sound]
'Davs2.Ma.C106_aligned_needs16' depends on axioms: [propext, Classical.choice, Quot.sound]
'Davs2.Ma.C106_stride' depends on axioms: [propext, Classical.choice, Quot.sound]
'Davs2.Ma.C106_memzero' depends on axioms: [propext, Classical.choice, Quot.sound]
'Davs2.Ma.C106_memset_partial' depends on axioms: [propext, Classical.choice, Quot.sound]
'Davs2.Ma.C106_memset_violated' depends on axioms: [propext, Classical.choice, Quot.sound]
'Davs2.Bc.C107_copy' depends on axioms: [propext, Classical.choice, Quot.sound]
'Davs2.Bc.C107_same' depends on axioms: [propext, Classical.choice, Quot.sound]
'Davs2.Bc.C107_luma' depends on axioms: [propext, Classical.choice, Quot.sound]
'Davs2.Bc.C107_chroma' depends on axioms: [propext, Classical.choice, Quot.sound]
'Davs2.Rcp.C108_copy' depends on axioms: [propext, Classical.choice, Quot.sound]
'Davs2.Rcp.C108_strides' depends on axioms: [propext, Classical.choice, Quot.sound]
'Davs2.Rcp.C108_borders' depends on axioms: [propext, Classical.choice, Quot.sound]
'Davs2.Rcp.C108_frame' depends on axioms: [propext, Classical.choice, Quot.sound]
'Davs2.Cd.C109_exact' depends on axioms: [propext, Quot.sound]
'Davs2.Cd.C109_none' depends on axioms: [propext, Quot.sound]
'Davs2.Cd.C109_param' depends on axioms: [propext]
'Davs2.Cd.C109_text' depends on axioms: [propext, Classical.choice, Quot.sound]
'Davs2.Cd.C109_text_all' depends on axioms: [propext, Classical.choice, Quot.sound]
'Davs2.C11_malformed_rejected' depends on axioms: [propext, Quot.sound]
'Davs2.C11_acceptable_accepted' depends on axioms: [propext, Classical.choice, Quot.sound]
'Davs2.Cd.C110_first_partial' depends on axioms: [propext, Quot.sound]
'Davs2.Cd.C110_all_off_partial' depends on axioms: [propext, Quot.sound]
'Davs2.Cd.C110_violated' depends on axioms: [propext, Quot.sound]
'Davs2.Cd.C110_race_violated' depends on axioms: [propext, Quot.sound]
'Davs2.Cd.C110_serial_partial' depends on axioms: [propext, Quot.sound]
'Davs2.Own.C111_exact' depends on axioms: [propext, Classical.choice, Quot.sound]
'Davs2.Own.C111_clean_partial' depends on axioms: [propext, Classical.choice, Quot.sound]
'Davs2.Own.C111_violated' depends on axioms: [propext, Quot.sound]
'Davs2.Own.C111_job_violated' depends on axioms: [propext, Quot.sound]
'Davs2.C112_first_slice' depends on axioms: [propext, Classical.choice, Quot.sound]
'Davs2.C112_inside' depends on axioms: [propext, Classical.choice, Quot.sound]
'Davs2.C112_transparent' depends on axioms: [propext, Classical.choice, Quot.sound]
'Davs2.Rz.C113_calm_partial' depends on axioms: [propext, Classical.choice, Quot.sound]
'Davs2.Rz.C113_violated' depends on axioms: [propext, Classical.choice, Quot.sound]
'Davs2.Rz.C113_counts' depends on axioms: [propext, Classical.choice, Quot.sound]
'Davs2.Px.C114_awake' depends on axioms: [propext, Quot.sound]
'Davs2.Px.C114_ends' depends on axioms: [propext, Quot.sound]
'Davs2.C115_partial' depends on axioms: [propext, Classical.choice, Quot.sound]
'Davs2.C115_violated' depends on axioms: [propext, Classical.choice, Quot.sound]
'Davs2.Ps.C116_order_partial' depends on axioms: [propext, Quot.sound]
'Davs2.Ps.C116_violated' depends on axioms: [propext, Classical.choice, Quot.sound]
'Davs2.Ps.C116_locked_partial' depends on axioms: [propext, Quot.sound]
'Davs2.Lk.C117_no_deadlock' depends on axioms: [propext, Classical.choice, Quot.sound]
'Davs2.Lk.C117_exclusive' depends on axioms: [propext, Quot.sound]
'Davs2.C12_flush_same_partial' depends on axioms: [propext, Quot.sound]
'Davs2.C12_flush_same_violated' depends on axioms: [propext, Quot.sound]
'Davs2.C13_smallest_first' depends on axioms: [propext, Classical.choice, Quot.sound]
'Davs2.C13_conserved' depends on axioms: [propext, Classical.choice, Quot.sound]
'Davs2.C14_announced_once_partial' depends on axioms: [propext, Classical.choice, Quot.sound]
'Davs2.C14_announced_next_partial' depends on axioms: [propext, Classical.choice, Quot.sound]
'Davs2.C14_same_size_violated' depends on axioms: [propext, Quot.sound]
'Davs2.C14_old_picture_after_new_header_violated' depends on axioms: [propext, Quot.sound]
'Davs2.C15_call_returns_partial' depends on axioms: [propext, Classical.choice, Quot.sound]
'Davs2.C15_finish_enabled' depends on axioms: [propext, Classical.choice, Quot.sound]
'Davs2.C15_flush_drains_partial' depends on axioms: [propext, Classical.choice, Quot.sound]
'Davs2.C15_flush_hangs_violated' depends on axioms: [propext, Quot.sound]
'Davs2.C16_use_counts' depends on axioms: [propext, Classical.choice, Quot.sound]
'Davs2.C16_use_counts_exact_partial' depends on axioms: [propext, Classical.choice, Quot.sound]
'Davs2.C16_not_recycled_in_use' depends on axioms: [propext, Classical.choice, Quot.sound]
'Davs2.C16_identity_stable' depends on axioms: [propext, Classical.choice, Quot.sound]
'Davs2.C16_release_defined' depends on axioms: [propext, Classical.choice, Quot.sound]
'Davs2.C16_leak_violated' depends on axioms: [propext, Quot.sound]
'Davs2.C16_leak_is_permanent' depends on axioms: [propext, Classical.choice, Quot.sound]
'Davs2.C17_references_as_asked' depends on axioms: [propext, Classical.choice, Quot.sound]
'Davs2.C17_missing_rejected' depends on axioms: [propext, Classical.choice, Quot.sound]
'Davs2.C17_rejected_only_if' depends on axioms: [propext, Classical.choice, Quot.sound]
'Davs2.C17_others_kept' depends on axioms: [propext, Classical.choice, Quot.sound]
'Davs2.C17_removed_gone' depends on axioms: [propext, Classical.choice, Quot.sound]
'Davs2.C18_accepted' depends on axioms: [propext, Classical.choice, Quot.sound]
'Davs2.C19_coding_order_partial' depends on axioms: [propext, Quot.sound]
'Davs2.C19_first' depends on axioms: [propext, Quot.sound]
'Davs2.C19_not_monotone_violated' depends on axioms: [propext, Classical.choice, Quot.sound]
'Davs2.C20_scan_ends_partial' depends on axioms: [propext, Quot.sound]
'Davs2.C20_picture_sound' depends on axioms: [propext, Quot.sound]
'Davs2.C20_starts_with_intra' depends on axioms: [propext, Quot.sound]
'Davs2.C20_undefined_violated' depends on axioms: [propext, Quot.sound]
'Davs2.C21_seq_tables_partial' depends on axioms: [propext, Classical.choice, Quot.sound]
'Davs2.C21_pic_tables_partial' depends on axioms: [propext, Classical.choice, Quot.sound]
'Davs2.C21_seq_overflow_violated' depends on axioms: [propext, Quot.sound]
'Davs2.C21_inter_overflow_violated' depends on axioms: [propext, Quot.sound]
'Davs2.C21_index_underflow_violated' depends on axioms: [propext, Quot.sound]
'Davs2.C22_depth_agrees_partial' depends on axioms: [propext, Classical.choice, Quot.sound]
'Davs2.C22_depth_violated' depends on axioms: [propext, Classical.choice, Quot.sound]
'Davs2.C23_frame_layout' depends on axioms: [propext, Classical.choice, Quot.sound]
'Davs2.C23_pool_layout' depends on axioms: [propext, Classical.choice, Quot.sound]
'Davs2.C23_task_layout' depends on axioms: [propext, Classical.choice, Quot.sound]
'Davs2.C23_mode_table' depends on axioms: [propext, Classical.choice, Quot.sound]
'Davs2.C23_no_overflow' depends on axioms: [propext, Classical.choice, Quot.sound]
'Davs2.C23_malloc' depends on axioms: [propext, Classical.choice, Quot.sound]
'Davs2.C23_output_picture' depends on axioms: [propext, Quot.sound]
'Davs2.C24_padding' depends on axioms: [propext, Classical.choice, Quot.sound]
'Davs2.padCfg_ok' depends on axioms: [propext, Classical.choice, Quot.sound]
'Davs2.C25_in_order' depends on axioms: [propext, Classical.choice, Quot.sound]
'Davs2.C25_right_job' depends on axioms: [propext, Classical.choice, Quot.sound]
'Davs2.C25_wait_result' depends on axioms: [propext, Classical.choice, Quot.sound]
'Davs2.C25_no_block' depends on axioms: [propext, Classical.choice, Quot.sound]
'Davs2.C26_fifo' depends on axioms: [propext, Classical.choice, Quot.sound]
'Davs2.C26_remove_total' depends on axioms: [propext, Classical.choice, Quot.sound]
'Davs2.C27_open_partial' depends on axioms: [propext, Quot.sound]
'Davs2.C27_high_cpus_violated' depends on axioms: [propext, Classical.choice, Quot.sound]
'Davs2.C27_null_param_violated' does not depend on any axioms
'Davs2.C28_table_rule' depends on axioms: [propext, Classical.choice, Quot.sound]
'Davs2.C28_states_valid' depends on axioms: [propext, Classical.choice, Quot.sound]
'Davs2.C28_renorm_terminates' depends on axioms: [propext, Classical.choice, Quot.sound]
'Davs2.C29_interval_partial' depends on axioms: [propext, Classical.choice, Quot.sound]
'Davs2.C29_start_violated' depends on axioms: [propext]
'Davs2.C30_reader_partial' depends on axioms: [propext, Classical.choice, Quot.sound]
'Davs2.C30_exhaustion_violated' depends on axioms: [propext, Classical.choice, Quot.sound]
'Davs2.C31_batch' depends on axioms: [propext, Classical.choice, Quot.sound]
'Davs2.C31_batch_ext' depends on axioms: [propext, Classical.choice, Quot.sound]
'Davs2.Sx.C32_splitFlag' depends on axioms: [propext, Quot.sound]
'Davs2.Sx.C32_dmhMode' depends on axioms: [propext, Classical.choice, Quot.sound]
'Davs2.Sx.C32_intraCuType' depends on axioms: [propext, Quot.sound]
'Davs2.Sx.C32_cuType' depends on axioms: [propext, Classical.choice, Quot.sound]
'Davs2.Sx.C32_cuTypeS' depends on axioms: [propext, Quot.sound]
'Davs2.Sx.C32_bPdir' depends on axioms: [propext, Classical.choice, Quot.sound]
'Davs2.Sx.C32_refFrame' depends on axioms: [propext, Quot.sound]
'Davs2.Sx.C32_interB' depends on axioms: [propext, Classical.choice, Quot.sound]
'Davs2.Sx.C32_interPF_partial' depends on axioms: [propext, Classical.choice, Quot.sound]
'Davs2.Sx.C32_intraPmode' depends on axioms: [propext, Classical.choice, Quot.sound]
'Davs2.Sx.C32_deltaQp' depends on axioms: [propext, Classical.choice, Quot.sound]
'Davs2.Sx.C32_cbp' depends on axioms: [propext, Classical.choice, Quot.sound]
'Davs2.Sx.C32_intraPmodeC' depends on axioms: [propext, Quot.sound]
'Davs2.Sx.C32_mvds_partial' depends on axioms: [propext, Classical.choice, Quot.sound]
'Davs2.Sx.C32_mvd_violated' depends on axioms: [propext, Quot.sound]
'Davs2.Sx.C32_references_violated' depends on axioms: [propext, Quot.sound]
'Davs2.Sx.C33_luma_partial' depends on axioms: [propext, Classical.choice, Quot.sound]
'Davs2.Sx.C33_chroma_partial' depends on axioms: [propext, Classical.choice, Quot.sound]
'Davs2.Sx.C33_addresses' depends on axioms: [propext, Classical.choice, Quot.sound]
'Davs2.Sx.C33_decoder_partial' depends on axioms: [propext, Classical.choice, Quot.sound]
'Davs2.Sx.C33_violated' depends on axioms: [propext, Quot.sound]
'Davs2.C34_scale_default_partial' depends on axioms: [propext, Classical.choice, Quot.sound]
'Davs2.C34_scale_skip_partial' depends on axioms: [propext, Classical.choice, Quot.sound]
'Davs2.C34_scale_biskip_partial' depends on axioms: [propext, Classical.choice, Quot.sound]
'Davs2.C34_scale_same_distance' depends on axioms: [propext, Classical.choice, Quot.sound]
'Davs2.C34_pmvr' depends on axioms: [propext, Classical.choice, Quot.sound]
'Davs2.C34_predictor_b' depends on axioms: [propext, Classical.choice, Quot.sound]
'Davs2.C34_overflow_violated' depends on axioms: [propext]
'Davs2.C34_skip_wrap_violated' depends on axioms: [propext]
'Davs2.C34_add_wrap_violated' depends on axioms: [propext]
'Davs2.C35_median_range' depends on axioms: [propext, Classical.choice, Quot.sound]
'Davs2.C35_median_pair' depends on axioms: [propext, Classical.choice, Quot.sound]
'Davs2.C35_median_neg' depends on axioms: [propext, Classical.choice, Quot.sound]
'Davs2.C35_predictor' depends on axioms: [propext, Classical.choice, Quot.sound]
'Davs2.C35_neighbour' depends on axioms: [propext, Classical.choice, Quot.sound]
'Davs2.C35_order_partial' depends on axioms: [propext, Classical.choice, Quot.sound]
'Davs2.C35_order_violated' depends on axioms: [propext]
'Davs2.C36_luma_partial' depends on axioms: [propext, Classical.choice, Quot.sound]
'Davs2.C36_chroma_partial' depends on axioms: [propext, Classical.choice, Quot.sound]
'Davs2.padded_of_padPicture' depends on axioms: [propext, Classical.choice, Quot.sound]
'Davs2.C36_high_violated' depends on axioms: [propext]
'Davs2.C36_wide_violated' depends on axioms: [propext]
'Davs2.C37_flat' depends on axioms: [propext, Classical.choice, Quot.sound]
'Davs2.C37_range' depends on axioms: [propext, Classical.choice, Quot.sound]
'Davs2.C37_no_overflow' depends on axioms: [propext, Classical.choice, Quot.sound]
'Davs2.Tr.C38_idct' depends on axioms: [propext, Classical.choice, Quot.sound]
'Davs2.Tr.C38_range' depends on axioms: [propext, Classical.choice, Quot.sound]
'Davs2.Tr.C38_64x64' depends on axioms: [propext, Classical.choice, Quot.sound]
'Davs2.Tr.C38_64x16' depends on axioms: [propext, Classical.choice, Quot.sound]
'Davs2.Tr.C38_16x64' depends on axioms: [propext, Classical.choice, Quot.sound]
'Davs2.Tr.C38_range64' depends on axioms: [propext, Classical.choice, Quot.sound]
'Davs2.Tr.C38_second4x4' depends on axioms: [propext, Classical.choice, Quot.sound]
'Davs2.Tr.C38_second' depends on axioms: [propext, Classical.choice, Quot.sound]
'Davs2.Rec.C39_recon' depends on axioms: [propext, Classical.choice, Quot.sound]
'Davs2.Rec.C39_range' depends on axioms: [propext, Classical.choice, Quot.sound]
'Davs2.Rec.C39_clip_pixel' depends on axioms: [propext, Classical.choice, Quot.sound]
'Davs2.Rec.C39_sign' depends on axioms: [propext, Classical.choice, Quot.sound]
'Davs2.Rec.C39_median' depends on axioms: [propext, Classical.choice, Quot.sound]
'Davs2.Db.C40_range' depends on axioms: [propext, Quot.sound]
'Davs2.Db.C40_untouched' depends on axioms: [propext, Quot.sound]
'Davs2.Db.C40_symmetric' depends on axioms: [propext, Quot.sound]
'Davs2.Db.C40_weights' depends on axioms: [propext, Quot.sound]
'Davs2.Db.C40_strength_mono' depends on axioms: [propext, Quot.sound]
'Davs2.Db.C40_reach' depends on axioms: [propext, Classical.choice, Quot.sound]
'Davs2.Db.C40_thresholds' depends on axioms: [propext, Classical.choice, Quot.sound]
'Davs2.Db.C41_once' depends on axioms: [propext, Classical.choice, Quot.sound]
'Davs2.Db.C41_once_partial' depends on axioms: [propext, Classical.choice, Quot.sound]
'Davs2.Db.C41_luma_partial' depends on axioms: [propext, Classical.choice, Quot.sound]
'Davs2.Db.C41_chroma_partial' depends on axioms: [propext, Classical.choice, Quot.sound]
'Davs2.Db.C41_narrow' depends on axioms: [propext, Classical.choice, Quot.sound]
'Davs2.Db.C41_one_tree_wide_violated' depends on axioms: [propext, Classical.choice, Quot.sound]
'Davs2.Db.C41_visible_violated' depends on axioms: [propext, Classical.choice, Quot.sound]
'Davs2.Sa.C42_edge0' depends on axioms: [propext, Classical.choice, Quot.sound]
'Davs2.Sa.C42_edge90' depends on axioms: [propext, Classical.choice, Quot.sound]
'Davs2.Sa.C42_edge135' depends on axioms: [propext, Classical.choice, Quot.sound]
'Davs2.Sa.C42_edge45' depends on axioms: [propext, Classical.choice, Quot.sound]
'Davs2.Sa.C42_band' depends on axioms: [propext, Classical.choice, Quot.sound]
'Davs2.Sa.C42_offset' depends on axioms: [propext, Classical.choice, Quot.sound]
'Davs2.Sa.C42_types' depends on axioms: [propext, Quot.sound]
'Davs2.Sa.C42_bands' depends on axioms: [propext, Quot.sound]
'Davs2.Sa.C42_merge' depends on axioms: [propext, Quot.sound]
'Davs2.Sa.C42_codes' depends on axioms: [propext, Classical.choice, Quot.sound]
'Davs2.Sa.C42_classes' depends on axioms: [propext, Quot.sound]
'Davs2.Lr.C43_sao_partial' depends on axioms: [propext, Classical.choice, Quot.sound]
'Davs2.Lr.C43_alf_partial' depends on axioms: [propext, Classical.choice, Quot.sound]
'Davs2.Lr.C43_extent' depends on axioms: [propext, Classical.choice, Quot.sound]
'Davs2.Lr.C43_sao_violated' depends on axioms: [propext]
'Davs2.Lr.C43_alf_violated' depends on axioms: [propext, Classical.choice, Quot.sound]
'Davs2.Al.C44_filter_partial' depends on axioms: [propext, Classical.choice, Quot.sound]
'Davs2.Al.C44_legal' depends on axioms: [propext, Classical.choice, Quot.sound]
'Davs2.Al.C44_flat' depends on axioms: [propext, Classical.choice, Quot.sound]
'Davs2.Al.C44_tables_partial' depends on axioms: [propext, Classical.choice, Quot.sound]
'Davs2.Al.C44_regions' depends on axioms: [propext, Classical.choice, Quot.sound]
'Davs2.Al.C44_tables_violated' depends on axioms: [propext, Quot.sound]
'Davs2.Al.C44_overflow_violated' depends on axioms: [propext, Classical.choice, Quot.sound]
'Davs2.Al.C44_adjacent' depends on axioms: [propext]
'Davs2.Al.C44_grid' depends on axioms: [propext, Classical.choice, Quot.sound]
'Davs2.Qt.C45_cover' depends on axioms: [propext, Classical.choice, Quot.sound]
'Davs2.Qt.C45_inside' depends on axioms: [propext, Classical.choice, Quot.sound]
'Davs2.Qt.C45_recon' depends on axioms: [propext, Classical.choice, Quot.sound]
'Davs2.Qt.C45_storage' depends on axioms: [propext, Classical.choice, Quot.sound]
'Davs2.Qt.C46_top_right' depends on axioms: [propext, Classical.choice, Quot.sound]
'Davs2.Qt.C46_bottom_left' depends on axioms: [propext, Classical.choice, Quot.sound]
'Davs2.Im.C47_legal' depends on axioms: [propext, Classical.choice, Quot.sound]
'Davs2.Im.C47_selects' depends on axioms: [propext, Quot.sound]
'Davs2.Im.C47_bijection' depends on axioms: [propext, Classical.choice, Quot.sound]
'Davs2.Im.C47_neighbours' depends on axioms: [propext, Classical.choice, Quot.sound]
'Davs2.Im.C47_inside' depends on axioms: [propext, Classical.choice, Quot.sound]
'Davs2.Im.C47_chroma' does not depend on any axioms
'Davs2.Im.C47_codes' depends on axioms: [propext]
'Davs2.Ip.C48_legal' depends on axioms: [propext, Classical.choice, Quot.sound]
'Davs2.Ip.C48_between' depends on axioms: [propext, Classical.choice, Quot.sound]
'Davs2.Ip.C48_flat_partial' depends on axioms: [propext, Classical.choice, Quot.sound]
'Davs2.Ip.C48_flat_violated' depends on axioms: [propext, Quot.sound]
'Davs2.Ip.C48_bilinear' depends on axioms: [propext, Classical.choice, Quot.sound]
'Davs2.Ip.C48_plane' depends on axioms: [propext, Classical.choice, Quot.sound]
'Davs2.Ip.C48_decoder' depends on axioms: [propext, Classical.choice, Quot.sound]
'Davs2.C49_dequant' depends on axioms: [propext, Classical.choice, Quot.sound]
'Davs2.C49_zero_mono' depends on axioms: [propext, Classical.choice, Quot.sound]
'Davs2.C49_step_mono' depends on axioms: [propext, Quot.sound]
'Davs2.C49_array' depends on axioms: [propext, Classical.choice, Quot.sound]
'Davs2.Un.C50_prediction' depends on axioms: [propext, Classical.choice, Quot.sound]
'Davs2.Un.C50_transform' depends on axioms: [propext, Classical.choice, Quot.sound]
'Davs2.Un.C50_coefficients' depends on axioms: [propext, Quot.sound]
'Davs2.Un.C50_intra' depends on axioms: [propext, Quot.sound]
'Davs2.Un.C50_inter' depends on axioms: [propext, Quot.sound]
'Davs2.Un.C50_references' depends on axioms: [propext, Classical.choice, Quot.sound]
'Davs2.Pl.C51_partition' depends on axioms: [propext, Classical.choice, Quot.sound]
'Davs2.Pl.C51_error' depends on axioms: [propext, Classical.choice, Quot.sound]
'Davs2.Rw.C52_safe_partial' depends on axioms: [propext, Classical.choice, Quot.sound]
'Davs2.Rw.C52_progress_partial' depends on axioms: [propext, Classical.choice, Quot.sound]
'Davs2.Rw.C52_ends_partial' depends on axioms: [propext, Classical.choice, Quot.sound]
'Davs2.Rw.C52_luma_partial' depends on axioms: [propext, Classical.choice, Quot.sound]
'Davs2.Rw.C52_chroma_partial' depends on axioms: [propext, Classical.choice, Quot.sound]
'Davs2.Rw.C52_final_partial' depends on axioms: [propext, Classical.choice, Quot.sound]
'Davs2.Rw.C52_stale_violated' depends on axioms: [propext, Classical.choice, Quot.sound]
'Davs2.Rw.C52_hang_violated' depends on axioms: [propext, Quot.sound]
'Davs2.C53_recv_does_not_starve_partial' depends on axioms: [propext, Classical.choice, Quot.sound]
'Davs2.C53_recv_starves_violated' depends on axioms: [propext, Quot.sound]
'Davs2.C54_sequence_header_roundtrip' depends on axioms: [propext, Classical.choice, Quot.sound]
'Davs2.C55_bitrate_partial' depends on axioms: [propext, Classical.choice, Quot.sound]
'Davs2.C55_bitrate_violated' depends on axioms: [propext, Classical.choice, Quot.sound]
'Davs2.C56_intra_header_roundtrip_partial' depends on axioms: [propext, Classical.choice, Quot.sound]
'Davs2.C56_inter_header_roundtrip_partial' depends on axioms: [propext, Classical.choice, Quot.sound]
'Davs2.C56_weighting_violated' depends on axioms: [propext, Quot.sound]
'Davs2.C57_waiting_removal_partial' depends on axioms: [propext, Classical.choice, Quot.sound]
'Davs2.C57_spurious_wakeup_violated' depends on axioms: [propext, Quot.sound]
'Davs2.C26_wait_empty_handed_violated' depends on axioms: [propext, Quot.sound]
'Davs2.C58_exact_decoding_partial' depends on axioms: [propext, Classical.choice, Quot.sound]
'Davs2.C58_equiprobable_violated' depends on axioms: [propext, Classical.choice, Quot.sound]
'Davs2.C59_slice_violated' depends on axioms: [propext, Quot.sound]
'Davs2.C59_delta_violated' depends on axioms: [propext, Quot.sound]
'Davs2.C59_fixed_partial' depends on axioms: [propext, Quot.sound]
'Davs2.C59_running_partial' depends on axioms: [propext, Quot.sound]
'Davs2.C59_chroma' depends on axioms: [propext, Classical.choice, Quot.sound]
'Davs2.Sl.C60_intra_modes_partial' depends on axioms: [propext, Classical.choice, Quot.sound]
'Davs2.Sl.C60_intra_modes_violated' does not depend on any axioms
'Davs2.Sl.C61_position_partial' depends on axioms: [propext, Quot.sound]
'Davs2.Sl.C61_position_violated' depends on axioms: [propext]
'Davs2.Sl.C61_position_ignored' depends on axioms: [propext]
'Davs2.Sl.C62_fields' depends on axioms: [propext, Classical.choice, Quot.sound]
'Davs2.Sl.C62_quantiser_violated' depends on axioms: [propext, Quot.sound]
'Davs2.Ip.C63_specialised' depends on axioms: [propext, Classical.choice, Quot.sound]
'Davs2.Ip.C64_border' depends on axioms: [propext, Classical.choice, Quot.sound]
'Davs2.Ip.C64_predict' depends on axioms: [propext, Classical.choice, Quot.sound]
'Davs2.Lr.C65_stages_partial' depends on axioms: [propext, Classical.choice, Quot.sound]
'Davs2.Lr.C65_luma_partial' depends on axioms: [propext, Classical.choice, Quot.sound]
'Davs2.Lr.C65_chroma_partial' depends on axioms: [propext, Classical.choice, Quot.sound]
'Davs2.Lr.C65_no_deblock_partial' depends on axioms: [propext, Classical.choice, Quot.sound]
'Davs2.Lr.C66_luma_partial' depends on axioms: [propext, Classical.choice, Quot.sound]
'Davs2.Lr.C66_chroma_partial' depends on axioms: [propext, Classical.choice, Quot.sound]
'Davs2.Lr.C66_violated' depends on axioms: [propext]
'Davs2.Lr.C67_flag_partial' depends on axioms: [propext]
'Davs2.Lr.C67_violated' depends on axioms: [propext]
'Davs2.Pl.C68_frames_partial' depends on axioms: [propext, Classical.choice, Quot.sound]
'Davs2.Pl.C68_frames_violated' depends on axioms: [propext]
'Davs2.Tl.C69_rate_partial' depends on axioms: [propext, Quot.sound]
'Davs2.Tl.C69_rate_violated' depends on axioms: [propext, Classical.choice, Quot.sound]
'Davs2.Tl.C70_difference' depends on axioms: [propext, Classical.choice, Quot.sound]
'Davs2.Tl.C70_position_partial' depends on axioms: [propext, Classical.choice, Quot.sound]
'Davs2.Tl.C70_position_violated' depends on axioms: [propext, Classical.choice, Quot.sound]
'Davs2.Md.C71_md5' depends on axioms: [propext, Classical.choice, Quot.sound]
'Davs2.Md.C72_verdict_partial' depends on axioms: [propext, Classical.choice, Quot.sound]
'Davs2.Md.C72_verdict_violated' depends on axioms: [propext, Classical.choice, Quot.sound]
'Davs2.Tl.C73_frame' depends on axioms: [propext, Quot.sound]
'Davs2.Tl.C73_size' depends on axioms: [propext, Quot.sound]
'Davs2.Tl.C74_output_partial' depends on axioms: [propext, Classical.choice, Quot.sound]
'Davs2.Tl.C74_no_output_violated' depends on axioms: [propext, Classical.choice, Quot.sound]
'Davs2.Wf.C75_samples_partial' depends on axioms: [propext, Classical.choice, Quot.sound]
'Davs2.Wf.C75_frame' depends on axioms: [propext, Classical.choice, Quot.sound]
'Davs2.Wf.C75_white_violated' depends on axioms: [propext, Classical.choice, Quot.sound]
'Davs2.Wf.C75_depth_violated' depends on axioms: [propext, Classical.choice, Quot.sound]
'Davs2.Wf.C76_memory_partial' depends on axioms: [propext, Classical.choice, Quot.sound]
'Davs2.Wf.C76_memory_violated' depends on axioms: [propext, Classical.choice, Quot.sound]
'Davs2.Wf.C77_overwrite_partial' depends on axioms: [propext]
'Davs2.Wf.C77_overwrite_violated' depends on axioms: [propext, Classical.choice, Quot.sound]
'Davs2.De.C78_marks_partial' depends on axioms: [propext, Classical.choice, Quot.sound]
'Davs2.De.C78_skip' depends on axioms: [propext, Classical.choice, Quot.sound]
'Davs2.De.C78_in_time_partial' depends on axioms: [propext, Classical.choice, Quot.sound]
'Davs2.De.C78_luma_partial' depends on axioms: [propext, Classical.choice, Quot.sound]
'Davs2.De.C78_chroma_partial' depends on axioms: [propext, Classical.choice, Quot.sound]
'Davs2.De.C78_border' depends on axioms: [propext, Quot.sound]
'Davs2.De.C78_strips_violated' depends on axioms: [propext]
'Davs2.De.C78_thresholds' depends on axioms: [propext, Quot.sound]
'Davs2.Sx.C79_splitFlag' depends on axioms: [propext, Quot.sound]
'Davs2.Sx.C79_dmhMode' depends on axioms: [propext, Quot.sound]
'Davs2.Sx.C79_intraCuType' depends on axioms: [propext, Quot.sound]
'Davs2.Sx.C79_intraPmode' depends on axioms: [propext, Quot.sound]
'Davs2.Sx.C79_wpm' depends on axioms: [propext, Quot.sound]
'Davs2.Sx.C79_dirSkip' depends on axioms: [propext, Quot.sound]
'Davs2.Sx.C79_cuTypeS' depends on axioms: [propext, Quot.sound]
'Davs2.Sx.C79_intraPmodeC' depends on axioms: [propext, Quot.sound]
'Davs2.Sx.C79_cuType' depends on axioms: [propext, Classical.choice, Quot.sound]
'Davs2.Sx.C79_dirsB' depends on axioms: [propext, Classical.choice, Quot.sound]
'Davs2.Sx.C79_refFrame' depends on axioms: [propext, Classical.choice, Quot.sound]
'Davs2.Sx.C79_interPF' depends on axioms: [propext, Classical.choice, Quot.sound]
'Davs2.Sx.C79_deltaQp' depends on axioms: [propext, Classical.choice, Quot.sound]
'Davs2.Sx.C79_cbp' depends on axioms: [propext, Quot.sound]
'Davs2.Sx.C79_mvd' depends on axioms: [propext, Classical.choice, Quot.sound]
'Davs2.Sx.C79_level' depends on axioms: [propext, Classical.choice, Quot.sound]
'Davs2.Sx.C79_decoder' depends on axioms: [propext, Classical.choice, Quot.sound]
'Davs2.Sx.C79_script' depends on axioms: [propext, Quot.sound]
'Davs2.Sx.C79_prefix_free' depends on axioms: [propext, Quot.sound]
'Davs2.Sx.C79_deltaQp_range' depends on axioms: [propext, Classical.choice, Quot.sound]
'Davs2.Sx.C80_luma' depends on axioms: [propext, Classical.choice, Quot.sound]
'Davs2.Sx.C80_chroma' depends on axioms: [propext, Classical.choice, Quot.sound]
'Davs2.Sx.C80_decoder' depends on axioms: [propext, Classical.choice, Quot.sound]
'Davs2.Sx.C80_unique' depends on axioms: [propext, Classical.choice, Quot.sound]
'Davs2.Sx.C80_scans' depends on axioms: [propext, Quot.sound]
'Davs2.Sx.C80_wraps' depends on axioms: [propext]
'Davs2.Vc.C81_inside_partial' depends on axioms: [propext, Classical.choice, Quot.sound]
'Davs2.Vc.C81_plane_partial' depends on axioms: [propext, Classical.choice, Quot.sound]
'Davs2.Vc.C81_filter_partial' depends on axioms: [propext, Classical.choice, Quot.sound]
'Davs2.Vc.C81_outside_violated' depends on axioms: [propext, Classical.choice, Quot.sound]
'Davs2.Vc.C81_mask_row_violated' depends on axioms: [propext, Quot.sound]
'Davs2.Vc.C81_weight_violated' depends on axioms: [propext, Classical.choice, Quot.sound]
'Davs2.Vc.C82_luma_ver' depends on axioms: [propext, Classical.choice, Quot.sound]
'Davs2.Vc.C82_luma_hor' depends on axioms: [propext, Classical.choice, Quot.sound]
'Davs2.Vc.C82_chroma_ver' depends on axioms: [propext, Classical.choice, Quot.sound]
'Davs2.Vc.C82_chroma_hor' depends on axioms: [propext, Classical.choice, Quot.sound]
'Davs2.Vc.C82_luma' depends on axioms: [propext, Classical.choice, Quot.sound]
'Davs2.Vc.C82_chroma' depends on axioms: [propext, Classical.choice, Quot.sound]
'Davs2.Vc.C82_thresholds' depends on axioms: [propext, Classical.choice, Quot.sound]
'Davs2.Vc.C83_edge0' depends on axioms: [propext, Classical.choice, Quot.sound]
'Davs2.Vc.C83_edge90' depends on axioms: [propext, Classical.choice, Quot.sound]
'Davs2.Vc.C83_edge135' depends on axioms: [propext, Classical.choice, Quot.sound]
'Davs2.Vc.C83_edge45' depends on axioms: [propext, Classical.choice, Quot.sound]
'Davs2.Vc.C83_band' depends on axioms: [propext, Classical.choice, Quot.sound]
'Davs2.Vc.C83_small' depends on axioms: [propext, Classical.choice, Quot.sound]
'Davs2.Vc.C84_luma' depends on axioms: [propext, Classical.choice, Quot.sound]
'Davs2.Vc.C84_chroma_partial' depends on axioms: [propext, Classical.choice, Quot.sound]
'Davs2.Vc.C84_chroma_violated' depends on axioms: [propext, Classical.choice, Quot.sound]
'Davs2.Vc.C84_mask_violated' depends on axioms: [propext, Classical.choice, Quot.sound]
'Davs2.Vc.C84_average' depends on axioms: [propext, Classical.choice, Quot.sound]
'Davs2.Mo.C85_partial' depends on axioms: [propext, Classical.choice, Quot.sound]
'Davs2.Mo.C85_reader' depends on axioms: [propext, Classical.choice, Quot.sound]
'Davs2.Mo.C85_I_picture' does not depend on any axioms
'Davs2.Mo.C85_sequence_partial' depends on axioms: [propext, Classical.choice, Quot.sound]
'Davs2.Mo.C85_no_reference_violated' depends on axioms: [propext]
'Davs2.Mo.C85_scene_violated' depends on axioms: [propext, Classical.choice, Quot.sound]
'Davs2.Mo.C86_slices_partial' depends on axioms: [propext, Classical.choice, Quot.sound]
'Davs2.Mo.C86_stateless_partial' depends on axioms: [propext, Classical.choice, Quot.sound]
'Davs2.Mo.C87_saved_motion' depends on axioms: [propext, Quot.sound]
'Davs2.Rp.C88_intra_picture' depends on axioms: [propext, Classical.choice, Quot.sound]
'Davs2.Rp.C88_no_error' depends on axioms: [propext, Classical.choice, Quot.sound]
'Davs2.Rp.C88_all_samples' depends on axioms: [propext, Classical.choice, Quot.sound]
'Davs2.Rp.C89_slices_independent' depends on axioms: [propext, Classical.choice, Quot.sound]
'Davs2.Rp.C90_many_slices_violated' depends on axioms: [propext, Classical.choice, Quot.sound]
'Davs2.Rp.C90_partial' depends on axioms: [propext, Classical.choice, Quot.sound]
'Davs2.Mo.C91_b_candidates' depends on axioms: [propext, Classical.choice, Quot.sound]
'Davs2.Mo.C91_b_closed' depends on axioms: [propext, Classical.choice, Quot.sound]
'Davs2.Mo.C91_f_candidates' depends on axioms: [propext, Classical.choice, Quot.sound]
'Davs2.Mo.C91_f_closed' depends on axioms: [propext, Classical.choice, Quot.sound]
'Davs2.Mo.C92_again' depends on axioms: [propext, Classical.choice, Quot.sound]
'Davs2.Mo.C92_b_spatial' depends on axioms: [propext, Classical.choice, Quot.sound]
'Davs2.Mo.C92_f_spatial' depends on axioms: [propext, Classical.choice, Quot.sound]
'Davs2.Mo.C93_pf_temporal' depends on axioms: [propext, Classical.choice, Quot.sound]
'Davs2.Mo.C93_b_temporal' depends on axioms: [propext, Classical.choice, Quot.sound]
'Davs2.Mo.C93_along' depends on axioms: [propext, Classical.choice, Quot.sound]
'Davs2.Mo.C94_explicit' depends on axioms: [propext, Classical.choice, Quot.sound]
'Davs2.Si.C95_table' depends on axioms: [propext, Classical.choice, Quot.sound]
'Davs2.Si.C95_same_as_c' depends on axioms: [propext, Classical.choice, Quot.sound]
'Davs2.Si.C95_area' depends on axioms: [propext, Quot.sound]
'Davs2.Si.C95_second4x4' depends on axioms: [propext, Classical.choice, Quot.sound]
'Davs2.Si.C95_second' depends on axioms: [propext, Classical.choice, Quot.sound]
'Davs2.Si.C95_second_area' depends on axioms: [propext, Classical.choice, Quot.sound]
'Davs2.Si.C95_transform' depends on axioms: [propext, Classical.choice, Quot.sound]
'Davs2.Cs.C96_picture' depends on axioms: [propext, Classical.choice, Quot.sound]
'Davs2.Cs.C96_decoder' depends on axioms: [propext, Classical.choice, Quot.sound]
'Davs2.Cs.C96_slice' depends on axioms: [propext, Classical.choice, Quot.sound]
'Davs2.Cs.C96_unique' depends on axioms: [propext, Classical.choice, Quot.sound]
'Davs2.Cs.C97_independent_partial' depends on axioms: [propext, Classical.choice, Quot.sound]
'Davs2.Cs.C97_S_violated' depends on axioms: [propext]
'Davs2.Cs.C97_column_violated' depends on axioms: [propext]
'Davs2.Cs.C98_complete_partial' depends on axioms: [propext, Quot.sound]
'Davs2.Cs.C98_violated' depends on axioms: [propext, Quot.sound]
'Davs2.Ir.C99_partial' depends on axioms: [propext, Classical.choice, Quot.sound]
'Davs2.Ir.C99_content' depends on axioms: [propext, Classical.choice, Quot.sound]
'Davs2.Ir.C99_wrap_violated' depends on axioms: [propext, Classical.choice, Quot.sound]
