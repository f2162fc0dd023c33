{
 "claims": [
  {
   "property": "C01",
   "status": "partial",
   "theorems": [
    "Davs2.C01_escape_roundtrip_partial",
    "Davs2.C01_escape_roundtrip_violated",
    "Davs2.C01_no_growth",
    "Davs2.C01_in_place",
    "Davs2.C01_encoder_no_start_code"
   ],
   "note": "false for units with code 01/02 whose first payload byte looks like a unit code (witness proved); proved for all other streams; in-place operation and length proved for every input"
  },
  {
   "property": "C02",
   "status": "proved",
   "theorems": [
    "Davs2.C02_passthrough",
    "Davs2.C02_passthrough_pattern",
    "Davs2.C02_raw_units"
   ],
   "note": ""
  },
  {
   "property": "C03",
   "status": "proved",
   "theorems": [
    "Davs2.C03_ue_roundtrip"
   ],
   "note": "any buffer, any bit offset, values up to 2^31-2"
  },
  {
   "property": "C04",
   "status": "proved",
   "theorems": [
    "Davs2.C04_se_roundtrip",
    "Davs2.C04_se_bijective"
   ],
   "note": ""
  },
  {
   "property": "C05",
   "status": "proved",
   "theorems": [
    "Davs2.C05_u_value",
    "Davs2.C05_u_value32",
    "Davs2.C05_u_split"
   ],
   "note": ""
  },
  {
   "property": "C06",
   "status": "partial",
   "theorems": [
    "Davs2.C06_read_inside_partial",
    "Davs2.C06_read_bits_oob_iff",
    "Davs2.C06_read_inside_violated"
   ],
   "note": "the code violates the property; exact condition proved"
  },
  {
   "property": "C07",
   "status": "partial",
   "theorems": [
    "Davs2.C07_find_start_code",
    "Davs2.C07_get_start_code_partial",
    "Davs2.C07_get_start_code_violated",
    "Davs2.C07_found_slice_header_partial",
    "Davs2.C07_found_slice_header_violated"
   ],
   "note": "find_start_code proved for every buffer; bs_get_start_code and found_slice_header read past the end at unaligned / near-end positions (witnesses), proved at byte-aligned positions / with 7 bytes left"
  },
  {
   "property": "C08",
   "status": "partial",
   "theorems": [
    "Davs2.C08_pic_start_sound",
    "Davs2.C08_pic_start_first_partial",
    "Davs2.C08_cut_independent_partial",
    "Davs2.C08_pic_start_violated"
   ],
   "note": "soundness for every input; completeness false when a start code overlaps the code byte 00 of another (witness), proved otherwise for every cut"
  },
  {
   "property": "C09",
   "status": "proved",
   "theorems": [
    "Davs2.C09_units_are_groups",
    "Davs2.C09_groups_concat",
    "Davs2.C09_group_boundaries"
   ],
   "note": ""
  },
  {
   "property": "C10",
   "status": "partial",
   "theorems": [
    "Davs2.C10_fits_partial",
    "Davs2.C10_fits_violated",
    "Davs2.C10_units_conserved"
   ],
   "note": "false for picture packets above 4,000,000 bytes (witness); proved for all smaller ones"
  },
  {
   "property": "C100",
   "status": "partial",
   "theorems": [
    "Davs2.Ir.C100_unparsed_partial",
    "Davs2.Ir.C100_violated"
   ],
   "note": "Holds for units that were not parsed; fails for units whose reference does not exist: a P picture without references is delivered with left-over memory and no error flag."
  },
  {
   "property": "C101",
   "status": "partial",
   "theorems": [
    "Davs2.Sx.C101_carried_partial",
    "Davs2.Sx.C101_encoder_partial",
    "Davs2.Sx.C101_payload_partial",
    "Davs2.Cs.C101_picture_partial",
    "Davs2.Sx.C101_unique",
    "Davs2.Sx.C101_total",
    "Davs2.Sx.C101_violated"
   ],
   "note": "Proved for every sequence of bins without equiprobable ones, and with them if no stretch of more probable values halves the unit more than 253 times (at most 253 bins in all are enough); fails otherwise: after 255 zeros of equal probability a one is decoded as zero without an error (witness with the payload of the encoder). Every number lies in the interval of exactly one answer."
  },
  {
   "property": "C102",
   "status": "partial",
   "theorems": [
    "Davs2.Vp.C102_sse",
    "Davs2.Vp.C102_avx2_partial",
    "Davs2.Vp.C102_avx2_overrun_partial",
    "Davs2.Vp.C102_violated_rows",
    "Davs2.Vp.C102_violated_array",
    "Davs2.Vp.C102_violated_mask"
   ],
   "note": "SSE4: every installed routine, every shape, every border. AVX2: everything but seven combinations of direction and shape, for which the block is still predicted as defined (C102_avx2_overrun_partial) but the claim is false: rows below the block are written (C102_violated_rows), an array is read before its start (C102_violated_array), a mask that does not exist is used (C102_violated_mask). DC, plane, bilinear and the filling of the border with vector instructions are not modelled."
  },
  {
   "property": "C103",
   "status": "proved",
   "theorems": [
    "Davs2.Vc.C103_border",
    "Davs2.Vc.C103_border_plain",
    "Davs2.Vc.C103_sse",
    "Davs2.Vc.C103_avx2",
    "Davs2.Vc.C103_directional"
   ],
   "note": "border, DC, plane and bilinear for SSE4 and AVX2, all shapes; samples of 8 bits; alignment is not stated"
  },
  {
   "property": "C104",
   "status": "proved",
   "theorems": [
    "Davs2.Va.C104_same_as_c",
    "Davs2.Va.C104_samples",
    "Davs2.Va.C104_sizes",
    "Davs2.Va.C104_bound_needed"
   ],
   "note": "8-bit branches of pixeladd8.asm as lists of instructions on bytes of memory and registers, in place, any stride; equality with the C function for residuals up to 32512 in the block (C104_bound_needed: the bound is needed), and the bound holds for the residuals defined by the inverse transforms. Reads of neighbouring bytes beyond narrow blocks are not checked against the end of the buffer."
  },
  {
   "property": "C105",
   "status": "proved",
   "theorems": [
    "Davs2.Si.C105_residual",
    "Davs2.Si.C105_samples",
    "Davs2.Si.C105_same_as_c",
    "Davs2.Si.C105_not_limited",
    "Davs2.Si.C105_where"
   ],
   "note": "Assembler inverse transforms of 4x4 and 8x8: limited to 9 bits the residual is the defined one; same samples as defined and as with the C functions. C105_not_limited records that the assembler itself does not limit."
  },
  {
   "property": "C106",
   "status": "partial",
   "theorems": [
    "Davs2.Ma.C106_memcpy",
    "Davs2.Ma.C106_memcpy_aligned",
    "Davs2.Ma.C106_aligned_needs16",
    "Davs2.Ma.C106_stride",
    "Davs2.Ma.C106_memzero",
    "Davs2.Ma.C106_memset_partial",
    "Davs2.Ma.C106_memset_violated"
   ],
   "note": "Copy, aligned copy (lengths that are multiples of 16), the row copies of the padding and clearing proved. The fill helper is wrong for values of 128 to 255 and 8 bytes or more (writes 127): C106_memset_violated; nothing in the library calls it. For lengths that are no multiple of 16 the aligned copy also writes in front of the destination: C106_aligned_needs16; the strides are multiples of 32."
  },
  {
   "property": "C107",
   "status": "proved",
   "theorems": [
    "Davs2.Bc.C107_copy",
    "Davs2.Bc.C107_same",
    "Davs2.Bc.C107_luma",
    "Davs2.Bc.C107_chroma"
   ],
   "note": "8-bit functions; every program of the SSE2 and AVX tables and the C functions. Types of units as C32 shows the parser gives them."
  },
  {
   "property": "C108",
   "status": "proved",
   "theorems": [
    "Davs2.Rcp.C108_copy",
    "Davs2.Rcp.C108_strides",
    "Davs2.Rcp.C108_borders",
    "Davs2.Rcp.C108_frame"
   ],
   "note": "Refinement: the copy on memory gives the row copy that C65 uses; the borders on memory give C24. Addresses do not wrap around; the planes are apart."
  },
  {
   "property": "C109",
   "status": "proved",
   "theorems": [
    "Davs2.Cd.C109_exact",
    "Davs2.Cd.C109_none",
    "Davs2.Cd.C109_param",
    "Davs2.Cd.C109_text",
    "Davs2.Cd.C109_text_all"
   ],
   "note": "The detection for any answers of cpuid and xgetbv: defined, exact for seven instruction sets, the switch, and the length of the text."
  },
  {
   "property": "C11",
   "status": "proved",
   "theorems": [
    "Davs2.C11_malformed_rejected",
    "Davs2.C11_acceptable_accepted"
   ],
   "note": "state of packet assembly; the rest of the decoder is not touched on these paths"
  },
  {
   "property": "C110",
   "status": "partial",
   "theorems": [
    "Davs2.Cd.C110_first_partial",
    "Davs2.Cd.C110_all_off_partial",
    "Davs2.Cd.C110_violated",
    "Davs2.Cd.C110_race_violated",
    "Davs2.Cd.C110_serial_partial"
   ],
   "note": "False of the code: the table of functions belongs to the process and is filled by the first decoder only (C110_violated), and a second thread can find it announced but empty (C110_race_violated). Proved: the first decoder's switch holds for all of fewer than 2^32 openings."
  },
  {
   "property": "C111",
   "status": "partial",
   "theorems": [
    "Davs2.Own.C111_exact",
    "Davs2.Own.C111_clean_partial",
    "Davs2.Own.C111_violated",
    "Davs2.Own.C111_job_violated"
   ],
   "note": "Nothing is freed twice in any history, and what closing leaves allocated is exact. False of the code as stated: pictures not fetched and packets of jobs not begun are never freed (witnesses)."
  },
  {
   "property": "C112",
   "status": "proved",
   "theorems": [
    "Davs2.C112_first_slice",
    "Davs2.C112_inside",
    "Davs2.C112_transparent"
   ],
   "note": "decode_user_data for every payload and position: first slice or none, inside the buffer, transparent to what stands in front."
  },
  {
   "property": "C113",
   "status": "partial",
   "theorems": [
    "Davs2.Rz.C113_calm_partial",
    "Davs2.Rz.C113_violated",
    "Davs2.Rz.C113_counts"
   ],
   "note": "False of the code: all frames lie in one block, which a header of another size frees although frames with references are only marked; in every reachable state with a frame in use its next use is undefined (C113_violated). Proved: no freed frame is touched if such headers arrive when nothing is held; the reference counts are exact."
  },
  {
   "property": "C114",
   "status": "proved",
   "theorems": [
    "Davs2.Px.C114_awake",
    "Davs2.Px.C114_ends"
   ],
   "note": "Waiting and waking of the pool, exit flag; assumes the function of a job returns (its waits are C52)."
  },
  {
   "property": "C115",
   "status": "partial",
   "theorems": [
    "Davs2.C115_partial",
    "Davs2.C115_violated"
   ],
   "note": "False of the code: each picture whose slices are missing keeps its frames for ever, as many of them as the pool has frames stop decoding (C115_violated, any pool size). C115_partial: as long as no such picture occurs a frame can always be had."
  },
  {
   "property": "C116",
   "status": "partial",
   "theorems": [
    "Davs2.Ps.C116_order_partial",
    "Davs2.Ps.C116_violated",
    "Davs2.Ps.C116_locked_partial"
   ],
   "note": "Build option CTRL_AEC_THREAD 1 only. False of the code: the number of parsed trees is stored and signalled without the mutex of the waiting thread, the last wake-up can be lost (C116_violated, any picture size). Order holds (C116_order_partial); with the mutex nothing would be lost (C116_locked_partial)."
  },
  {
   "property": "C117",
   "status": "proved",
   "theorems": [
    "Davs2.Lk.C117_no_deadlock",
    "Davs2.Lk.C117_exclusive"
   ],
   "note": "Mutexes only (waiting for conditions: C52, C57, C114), CTRL_AEC_THREAD 0; the ways threads take through the sections are arbitrary."
  },
  {
   "property": "C12",
   "status": "partial",
   "theorems": [
    "Davs2.C12_flush_same_partial",
    "Davs2.C12_flush_same_violated"
   ],
   "note": "false for units with escapes (witness); proved for units without the pattern"
  },
  {
   "property": "C13",
   "status": "proved",
   "theorems": [
    "Davs2.C13_smallest_first",
    "Davs2.C13_conserved"
   ],
   "note": "every interleaving of completions and receive/flush calls"
  },
  {
   "property": "C14",
   "status": "partial",
   "theorems": [
    "Davs2.C14_announced_once_partial",
    "Davs2.C14_announced_next_partial",
    "Davs2.C14_same_size_violated",
    "Davs2.C14_old_picture_after_new_header_violated"
   ],
   "note": "once per change of header and in its own call is proved; same-size header change is not announced and an old picture can follow a new header (witnesses)"
  },
  {
   "property": "C15",
   "status": "partial",
   "theorems": [
    "Davs2.C15_call_returns_partial",
    "Davs2.C15_finish_enabled",
    "Davs2.C15_flush_drains_partial",
    "Davs2.C15_flush_hangs_violated"
   ],
   "note": "flush drains when every accepted picture is finished by its task; otherwise flush hangs (witness)"
  },
  {
   "property": "C16",
   "status": "partial",
   "theorems": [
    "Davs2.C16_use_counts",
    "Davs2.C16_use_counts_exact_partial",
    "Davs2.C16_not_recycled_in_use",
    "Davs2.C16_identity_stable",
    "Davs2.C16_release_defined",
    "Davs2.C16_leak_violated",
    "Davs2.C16_leak_is_permanent"
   ],
   "note": "never recycled in use is proved for all histories; exact counts unless a task loses its picture (witness of the leak)"
  },
  {
   "property": "C17",
   "status": "proved",
   "theorems": [
    "Davs2.C17_references_as_asked",
    "Davs2.C17_missing_rejected",
    "Davs2.C17_rejected_only_if",
    "Davs2.C17_others_kept",
    "Davs2.C17_removed_gone"
   ],
   "note": "every stored-picture state and reference set"
  },
  {
   "property": "C18",
   "status": "proved",
   "theorems": [
    "Davs2.C18_accepted"
   ],
   "note": ""
  },
  {
   "property": "C19",
   "status": "partial",
   "theorems": [
    "Davs2.C19_coding_order_partial",
    "Davs2.C19_first",
    "Davs2.C19_not_monotone_violated"
   ],
   "note": "equal consecutive numbers do not advance the coding order (C19_not_monotone_violated)"
  },
  {
   "property": "C20",
   "status": "partial",
   "theorems": [
    "Davs2.C20_scan_ends_partial",
    "Davs2.C20_picture_sound",
    "Davs2.C20_starts_with_intra",
    "Davs2.C20_undefined_violated"
   ],
   "note": "a header that overflows a table has no defined outcome (C20_undefined_violated)"
  },
  {
   "property": "C21",
   "status": "partial",
   "theorems": [
    "Davs2.C21_seq_tables_partial",
    "Davs2.C21_pic_tables_partial",
    "Davs2.C21_seq_overflow_violated",
    "Davs2.C21_inter_overflow_violated",
    "Davs2.C21_index_underflow_violated"
   ],
   "note": "the number of references is unchecked in the sequence header and in the inter header; a failed index read selects set -1"
  },
  {
   "property": "C22",
   "status": "partial",
   "theorems": [
    "Davs2.C22_depth_agrees_partial",
    "Davs2.C22_depth_violated"
   ],
   "note": "the announced depth is the coding depth; it differs from the delivered one for MAIN10 streams with different precisions"
  },
  {
   "property": "C23",
   "status": "proved",
   "theorems": [
    "Davs2.C23_frame_layout",
    "Davs2.C23_pool_layout",
    "Davs2.C23_task_layout",
    "Davs2.C23_mode_table",
    "Davs2.C23_no_overflow",
    "Davs2.C23_malloc",
    "Davs2.C23_output_picture"
   ],
   "note": "Frame layout (davs2_frame_get_size/davs2_frame_new), pool carve (create_dpb), task work buffer (decoder_alloc_extra_buffer), davs2_malloc and output pictures; for every size, address and compiler-chosen structure size. The size computed is also below 2^31 for every accepted format."
  },
  {
   "property": "C24",
   "status": "proved",
   "theorems": [
    "Davs2.C24_padding",
    "Davs2.padCfg_ok"
   ],
   "note": "pad_line_lcu over linear memory, 8-bit samples, all coding-tree sizes; padCfg_ok shows the hypotheses hold for every luma plane and every 4:2:0 chroma plane. For 4:0:0 streams the (unused) chroma planes are not covered."
  },
  {
   "property": "C25",
   "status": "proved",
   "theorems": [
    "Davs2.C25_in_order",
    "Davs2.C25_right_job",
    "Davs2.C25_wait_result",
    "Davs2.C25_no_block"
   ],
   "note": "Invariant over all interleavings of submitters, workers and waiters of the pool model."
  },
  {
   "property": "C26",
   "status": "proved",
   "theorems": [
    "Davs2.C26_fifo",
    "Davs2.C26_remove_total"
   ],
   "note": "All interleavings of appends, removals and blocked removals."
  },
  {
   "property": "C27",
   "status": "partial",
   "theorems": [
    "Davs2.C27_open_partial",
    "Davs2.C27_high_cpus_violated",
    "Davs2.C27_null_param_violated"
   ],
   "note": "Opening succeeds with the documented thread count for every supported request; two inputs on which it fails are proved as violations."
  },
  {
   "property": "C28",
   "status": "proved",
   "theorems": [
    "Davs2.C28_table_rule",
    "Davs2.C28_states_valid",
    "Davs2.C28_renorm_terminates"
   ],
   "note": "Tables equal the arithmetic update rule; every reachable probability state is in range; renormalisation ends."
  },
  {
   "property": "C29",
   "status": "partial",
   "theorems": [
    "Davs2.C29_interval_partial",
    "Davs2.C29_start_violated"
   ],
   "note": "true for every payload that does not begin with nine one bits and, with equiprobable symbols, whose value stays off the register bound; witness for the start proved"
  },
  {
   "property": "C30",
   "status": "partial",
   "theorems": [
    "Davs2.C30_reader_partial",
    "Davs2.C30_exhaustion_violated"
   ],
   "note": "Bits are delivered in order up to the end and then an error is reported; after 128 failed reads the counter wraps and the reader leaves defined behaviour (violation)."
  },
  {
   "property": "C31",
   "status": "proved",
   "theorems": [
    "Davs2.C31_batch",
    "Davs2.C31_batch_ext"
   ],
   "note": "both batched routines, all states, contexts and maxima"
  },
  {
   "property": "C32",
   "status": "partial",
   "theorems": [
    "Davs2.Sx.C32_splitFlag",
    "Davs2.Sx.C32_dmhMode",
    "Davs2.Sx.C32_intraCuType",
    "Davs2.Sx.C32_cuType",
    "Davs2.Sx.C32_cuTypeS",
    "Davs2.Sx.C32_bPdir",
    "Davs2.Sx.C32_refFrame",
    "Davs2.Sx.C32_interB",
    "Davs2.Sx.C32_interPF_partial",
    "Davs2.Sx.C32_intraPmode",
    "Davs2.Sx.C32_deltaQp",
    "Davs2.Sx.C32_cbp",
    "Davs2.Sx.C32_intraPmodeC",
    "Davs2.Sx.C32_mvds_partial",
    "Davs2.Sx.C32_mvd_violated",
    "Davs2.Sx.C32_references_violated"
   ],
   "note": "Every syntax element reader: no context or table index out of range for any payload, results in range; motion vector differences may overflow int and references may stay stale on truncated data (both shown as violated)."
  },
  {
   "property": "C33",
   "status": "partial",
   "theorems": [
    "Davs2.Sx.C33_luma_partial",
    "Davs2.Sx.C33_chroma_partial",
    "Davs2.Sx.C33_addresses",
    "Davs2.Sx.C33_decoder_partial",
    "Davs2.Sx.C33_violated"
   ],
   "note": "All block shapes, scans and payloads: coefficients inside the block, no position twice, transform area covers them. Unless the unlimited Exp-Golomb prefix overflows int (C33_violated)."
  },
  {
   "property": "C34",
   "status": "partial",
   "theorems": [
    "Davs2.C34_scale_default_partial",
    "Davs2.C34_scale_skip_partial",
    "Davs2.C34_scale_biskip_partial",
    "Davs2.C34_scale_same_distance",
    "Davs2.C34_pmvr",
    "Davs2.C34_predictor_b",
    "Davs2.C34_overflow_violated",
    "Davs2.C34_skip_wrap_violated",
    "Davs2.C34_add_wrap_violated"
   ],
   "note": "Scaling by spatial prediction equals the rounded value limited to 16 bits while the product fits 32 bits; in B pictures always; explicit vectors always. Overflow of the product, wrap-around in skip modes, in the field correction, in mirroring and in the multi-hypothesis offset are proved as violations."
  },
  {
   "property": "C35",
   "status": "partial",
   "theorems": [
    "Davs2.C35_median_range",
    "Davs2.C35_median_pair",
    "Davs2.C35_median_neg",
    "Davs2.C35_predictor",
    "Davs2.C35_neighbour",
    "Davs2.C35_order_partial",
    "Davs2.C35_order_violated"
   ],
   "note": "Range, choice and mirror symmetry hold for all triples; independence of the order holds without ties and fails with ties."
  },
  {
   "property": "C36",
   "status": "partial",
   "theorems": [
    "Davs2.C36_luma_partial",
    "Davs2.C36_chroma_partial",
    "Davs2.padded_of_padPicture",
    "Davs2.C36_high_violated",
    "Davs2.C36_wide_violated"
   ],
   "note": "Holds when the reads stay inside the padding reached by the position clipping; fails for blocks that are higher or wider than the margin."
  },
  {
   "property": "C37",
   "status": "proved",
   "theorems": [
    "Davs2.C37_flat",
    "Davs2.C37_range",
    "Davs2.C37_no_overflow"
   ],
   "note": ""
  },
  {
   "property": "C38",
   "status": "proved",
   "theorems": [
    "Davs2.Tr.C38_idct",
    "Davs2.Tr.C38_range",
    "Davs2.Tr.C38_64x64",
    "Davs2.Tr.C38_64x16",
    "Davs2.Tr.C38_16x64",
    "Davs2.Tr.C38_range64",
    "Davs2.Tr.C38_second4x4",
    "Davs2.Tr.C38_second"
   ],
   "note": "Butterflies, two-dimensional transforms, wavelet stage and secondary transforms; absence of overflow is part of each equation."
  },
  {
   "property": "C39",
   "status": "proved",
   "theorems": [
    "Davs2.Rec.C39_recon",
    "Davs2.Rec.C39_range",
    "Davs2.Rec.C39_clip_pixel",
    "Davs2.Rec.C39_sign",
    "Davs2.Rec.C39_median"
   ],
   "note": "in-place residual addition over the whole block, all strides; branch-free helpers over 32-bit words"
  },
  {
   "property": "C40",
   "status": "proved",
   "theorems": [
    "Davs2.Db.C40_range",
    "Davs2.Db.C40_untouched",
    "Davs2.Db.C40_symmetric",
    "Davs2.Db.C40_weights",
    "Davs2.Db.C40_strength_mono",
    "Davs2.Db.C40_reach",
    "Davs2.Db.C40_thresholds"
   ],
   "note": "Strength, smoothing and thresholds of the deblocking filter."
  },
  {
   "property": "C41",
   "status": "partial",
   "theorems": [
    "Davs2.Db.C41_once",
    "Davs2.Db.C41_once_partial",
    "Davs2.Db.C41_luma_partial",
    "Davs2.Db.C41_chroma_partial",
    "Davs2.Db.C41_narrow",
    "Davs2.Db.C41_one_tree_wide_violated",
    "Davs2.Db.C41_visible_violated"
   ],
   "note": "Holds for pictures wider than one coding tree, where the result equals filtering all vertical and then all horizontal edges at once. In pictures at most one coding tree wide the horizontal edges of the last block column are never filtered."
  },
  {
   "property": "C42",
   "status": "proved",
   "theorems": [
    "Davs2.Sa.C42_edge0",
    "Davs2.Sa.C42_edge90",
    "Davs2.Sa.C42_edge135",
    "Davs2.Sa.C42_edge45",
    "Davs2.Sa.C42_band",
    "Davs2.Sa.C42_offset",
    "Davs2.Sa.C42_types",
    "Davs2.Sa.C42_bands",
    "Davs2.Sa.C42_merge",
    "Davs2.Sa.C42_codes",
    "Davs2.Sa.C42_classes"
   ],
   "note": "All five filter kinds for all block sizes and availabilities, parameter syntax ranges, band table and merge choice; samples are unbounded integers saturated to the bit depth."
  },
  {
   "property": "C43",
   "status": "partial",
   "theorems": [
    "Davs2.Lr.C43_sao_partial",
    "Davs2.Lr.C43_alf_partial",
    "Davs2.Lr.C43_extent",
    "Davs2.Lr.C43_sao_violated",
    "Davs2.Lr.C43_alf_violated"
   ],
   "note": "Regions tile the picture if filtering across slices is allowed, or (SAO) no slice number is stale / (ALF) no two trees above each other are of different slices; extents hold for all layouts. Without these conditions samples are filtered twice or never (violations)."
  },
  {
   "property": "C44",
   "status": "partial",
   "theorems": [
    "Davs2.Al.C44_filter_partial",
    "Davs2.Al.C44_legal",
    "Davs2.Al.C44_flat",
    "Davs2.Al.C44_tables_partial",
    "Davs2.Al.C44_regions",
    "Davs2.Al.C44_tables_violated",
    "Davs2.Al.C44_overflow_violated",
    "Davs2.Al.C44_adjacent",
    "Davs2.Al.C44_grid"
   ],
   "note": "Filter output equals the 17-tap definition for weights of bounded size; any defined output is a legal sample; flat areas keep their value when no offset is sent; parsed tables (with at least one filter) index inside. A region distance of 16 writes outside the table and weights of 2^24 overflow (violations)."
  },
  {
   "property": "C45",
   "status": "proved",
   "theorems": [
    "Davs2.Qt.C45_cover",
    "Davs2.Qt.C45_inside",
    "Davs2.Qt.C45_recon",
    "Davs2.Qt.C45_storage"
   ],
   "note": "Quadtree parse and reconstruction loops for every LCU size, picture size and split decisions: every sample inside the picture belongs to exactly one coding unit, coding units lie inside the picture, reconstruction visits the parsed units in order, coefficient storage ranges are disjoint and inside the buffer."
  },
  {
   "property": "C46",
   "status": "proved",
   "theorems": [
    "Davs2.Qt.C46_top_right",
    "Davs2.Qt.C46_bottom_left"
   ],
   "note": "Tables compared with z-order at every level and position; the specification is the decoding order, not the table."
  },
  {
   "property": "C47",
   "status": "proved",
   "theorems": [
    "Davs2.Im.C47_legal",
    "Davs2.Im.C47_selects",
    "Davs2.Im.C47_bijection",
    "Davs2.Im.C47_neighbours",
    "Davs2.Im.C47_inside",
    "Davs2.Im.C47_chroma",
    "Davs2.Im.C47_codes"
   ],
   "note": "All neighbour modes and code words; neighbours are looked up through the shared mode buffer (linear memory, only last row and column of a block stored) for every sequence of non-overlapping blocks. The one unused code word gives a legal mode (C47_legal)."
  },
  {
   "property": "C48",
   "status": "partial",
   "theorems": [
    "Davs2.Ip.C48_legal",
    "Davs2.Ip.C48_between",
    "Davs2.Ip.C48_flat_partial",
    "Davs2.Ip.C48_flat_violated",
    "Davs2.Ip.C48_bilinear",
    "Davs2.Ip.C48_plane",
    "Davs2.Ip.C48_decoder"
   ],
   "note": "Legal samples for every mode and shape, directional modes stay between the neighbours, no 16-bit wrap-around in the bilinear mode, the plane mode continues linear ramps within a stated bound, flat borders give flat blocks; the last fails for DC and bilinear on non-square blocks (witnesses)."
  },
  {
   "property": "C49",
   "status": "proved",
   "theorems": [
    "Davs2.C49_dequant",
    "Davs2.C49_zero_mono",
    "Davs2.C49_step_mono",
    "Davs2.C49_array"
   ],
   "note": "all quantisers of the tables, all sizes, all 16-bit levels; 8-bit build"
  },
  {
   "property": "C50",
   "status": "proved",
   "theorems": [
    "Davs2.Un.C50_prediction",
    "Davs2.Un.C50_transform",
    "Davs2.Un.C50_coefficients",
    "Davs2.Un.C50_intra",
    "Davs2.Un.C50_inter",
    "Davs2.Un.C50_references"
   ],
   "note": "All types, sizes, picture types and splits; packed 32-bit shifts modelled on bytes; also the storage of references per 4x4 block and of coefficients per transform unit."
  },
  {
   "property": "C51",
   "status": "proved",
   "theorems": [
    "Davs2.Pl.C51_partition",
    "Davs2.Pl.C51_error"
   ],
   "note": "Every non-empty file and every pattern of refusals by the decoder; the empty file is not sent (the player stops after reading it)."
  },
  {
   "property": "C52",
   "status": "partial",
   "theorems": [
    "Davs2.Rw.C52_safe_partial",
    "Davs2.Rw.C52_progress_partial",
    "Davs2.Rw.C52_ends_partial",
    "Davs2.Rw.C52_luma_partial",
    "Davs2.Rw.C52_chroma_partial",
    "Davs2.Rw.C52_final_partial",
    "Davs2.Rw.C52_stale_violated",
    "Davs2.Rw.C52_hang_violated"
   ],
   "note": "Safety, absence of deadlock and termination hold over all interleavings for frames whose counters are not left over from an earlier picture and for pictures without abandoned rows; both exceptions are shown to break the claim. Spurious wake-ups are not modelled (the loop tests again)."
  },
  {
   "property": "C53",
   "status": "partial",
   "theorems": [
    "Davs2.C53_recv_does_not_starve_partial",
    "Davs2.C53_recv_starves_violated"
   ],
   "note": "returns when no picture is being decoded or one can be delivered; a schedule in which it waits forever is a witness"
  },
  {
   "property": "C54",
   "status": "proved",
   "theorems": [
    "Davs2.C54_sequence_header_roundtrip"
   ],
   "note": ""
  },
  {
   "property": "C55",
   "status": "partial",
   "theorems": [
    "Davs2.C55_bitrate_partial",
    "Davs2.C55_bitrate_violated"
   ],
   "note": "wraps modulo 2^32"
  },
  {
   "property": "C56",
   "status": "partial",
   "theorems": [
    "Davs2.C56_intra_header_roundtrip_partial",
    "Davs2.C56_inter_header_roundtrip_partial",
    "Davs2.C56_weighting_violated"
   ],
   "note": "holds for sequences without weighted quantisation; violated with it: the picture flag is never read"
  },
  {
   "property": "C57",
   "status": "partial",
   "theorems": [
    "Davs2.C57_waiting_removal_partial",
    "Davs2.C57_spurious_wakeup_violated",
    "Davs2.C26_wait_empty_handed_violated"
   ],
   "note": "Holds for wake-ups that follow a signal with the element still there; a wake-up without cause or a lost race makes the waiting removal return nothing, which the caller dereferences (witnesses)."
  },
  {
   "property": "C58",
   "status": "partial",
   "theorems": [
    "Davs2.C58_exact_decoding_partial",
    "Davs2.C58_equiprobable_violated"
   ],
   "note": "exact for all payloads and symbol sequences except: payload starting with nine ones; an equiprobable symbol decoded when the value register is at its bound (witness proved)"
  },
  {
   "property": "C59",
   "status": "partial",
   "theorems": [
    "Davs2.C59_slice_violated",
    "Davs2.C59_delta_violated",
    "Davs2.C59_fixed_partial",
    "Davs2.C59_running_partial",
    "Davs2.C59_chroma"
   ],
   "note": "violated by slice quantisers above 79 and by accumulated changes; holds while running sums stay in 0..79; chroma always holds"
  },
  {
   "property": "C60",
   "status": "partial",
   "theorems": [
    "Davs2.Sl.C60_intra_modes_partial",
    "Davs2.Sl.C60_intra_modes_violated"
   ],
   "note": "Holds if slices begin at the left border of the picture; otherwise the mode of the block to the left is taken from the other slice (witness). Only intra modes are modelled."
  },
  {
   "property": "C61",
   "status": "partial",
   "theorems": [
    "Davs2.Sl.C61_position_partial",
    "Davs2.Sl.C61_position_violated",
    "Davs2.Sl.C61_position_ignored"
   ],
   "note": "The position fields are read and dropped: with a lost slice the following ones are misplaced (witness). Holds for gapless sequences."
  },
  {
   "property": "C62",
   "status": "partial",
   "theorems": [
    "Davs2.Sl.C62_fields",
    "Davs2.Sl.C62_quantiser_violated"
   ],
   "note": "Fields are read back; the quantiser is not rejected when too large (witness)."
  },
  {
   "property": "C63",
   "status": "proved",
   "theorems": [
    "Davs2.Ip.C63_specialised"
   ],
   "note": "All 33 modes, all nine shapes, any neighbours, on the border the decoder builds."
  },
  {
   "property": "C64",
   "status": "proved",
   "theorems": [
    "Davs2.Ip.C64_border",
    "Davs2.Ip.C64_predict"
   ],
   "note": "Border equals its definition on every sample a predictor may read; the prediction does not depend on scratch contents or on the position in the coding tree unit."
  },
  {
   "property": "C65",
   "status": "partial",
   "theorems": [
    "Davs2.Lr.C65_stages_partial",
    "Davs2.Lr.C65_luma_partial",
    "Davs2.Lr.C65_chroma_partial",
    "Davs2.Lr.C65_no_deblock_partial"
   ],
   "note": "Proved for luma and chroma for pictures more than one tree wide when slices do not limit filtering (8 bit), and for any deblocking footprint in general; with slices limiting filtering it fails, see C43 and C66."
  },
  {
   "property": "C66",
   "status": "partial",
   "theorems": [
    "Davs2.Lr.C66_luma_partial",
    "Davs2.Lr.C66_chroma_partial",
    "Davs2.Lr.C66_violated"
   ],
   "note": "Independent of slice numbers of earlier pictures and of all buffers when slices do not limit filtering; with cross_loop_filter_flag 0 stale slice numbers change the output (witness)."
  },
  {
   "property": "C67",
   "status": "partial",
   "theorems": [
    "Davs2.Lr.C67_flag_partial",
    "Davs2.Lr.C67_violated"
   ],
   "note": "Holds if all trees of a row are in slices with the same flag; otherwise the flag of the last slice of the row is used for all (witness)."
  },
  {
   "property": "C68",
   "status": "partial",
   "theorems": [
    "Davs2.Pl.C68_frames_partial",
    "Davs2.Pl.C68_frames_violated"
   ],
   "note": "Files beginning with a start code. Bytes before the first start code make the announced number too small or large (violation)."
  },
  {
   "property": "C69",
   "status": "partial",
   "theorems": [
    "Davs2.Tl.C69_rate_partial",
    "Davs2.Tl.C69_rate_violated"
   ],
   "note": "Frame rate codes 1 to 8; legal codes 9 to 13 read outside the table of the player (violation)."
  },
  {
   "property": "C70",
   "status": "partial",
   "theorems": [
    "Davs2.Tl.C70_difference",
    "Davs2.Tl.C70_position_partial",
    "Davs2.Tl.C70_position_violated"
   ],
   "note": "Difference exact for all sizes; reported position is right if at most one row differs, otherwise it is in the last differing row (violation)."
  },
  {
   "property": "C71",
   "status": "proved",
   "theorems": [
    "Davs2.Md.C71_md5"
   ],
   "note": "Full RFC 1321 specification written independently; files below 2^37 bytes (beyond, the code's bit count differs)."
  },
  {
   "property": "C72",
   "status": "partial",
   "theorems": [
    "Davs2.Md.C72_verdict_partial",
    "Davs2.Md.C72_verdict_violated"
   ],
   "note": "Reference digests in upper case; lower case letters are reported as a failure (violation)."
  },
  {
   "property": "C73",
   "status": "proved",
   "theorems": [
    "Davs2.Tl.C73_frame",
    "Davs2.Tl.C73_size"
   ],
   "note": "All plane geometries whose memory covers the rows."
  },
  {
   "property": "C74",
   "status": "partial",
   "theorems": [
    "Davs2.Tl.C74_output_partial",
    "Davs2.Tl.C74_no_output_violated"
   ],
   "note": "Given an output name; without one a null pointer is read (violation)."
  },
  {
   "property": "C75",
   "status": "partial",
   "theorems": [
    "Davs2.Wf.C75_samples_partial",
    "Davs2.Wf.C75_frame",
    "Davs2.Wf.C75_white_violated",
    "Davs2.Wf.C75_depth_violated"
   ],
   "note": "All accepted headers with output depth 8 or equal to the coding depth, both builds, all sizes. Violations: brightest samples become black when the depth is reduced; other output depths deliver stale memory."
  },
  {
   "property": "C76",
   "status": "partial",
   "theorems": [
    "Davs2.Wf.C76_memory_partial",
    "Davs2.Wf.C76_memory_violated"
   ],
   "note": "All sizes when the announced sample size is at most that of the build; 10-bit output in the normal build announces twice the memory (violation)."
  },
  {
   "property": "C77",
   "status": "partial",
   "theorems": [
    "Davs2.Wf.C77_overwrite_partial",
    "Davs2.Wf.C77_overwrite_violated"
   ],
   "note": "All histories with constant bit depths; a second header of equal size and other depths lets a delivery overwrite a decoder frame (violation)."
  },
  {
   "property": "C78",
   "status": "partial",
   "theorems": [
    "Davs2.De.C78_marks_partial",
    "Davs2.De.C78_skip",
    "Davs2.De.C78_in_time_partial",
    "Davs2.De.C78_luma_partial",
    "Davs2.De.C78_chroma_partial",
    "Davs2.De.C78_border",
    "Davs2.De.C78_strips_violated",
    "Davs2.De.C78_thresholds"
   ],
   "note": "Holds for all pictures more than one coding tree wide, except intra strips with coefficients when non-square transforms are off, where an edge is filtered that separates nothing (C78_strips_violated); single-tree-wide pictures are C41_one_tree_wide_violated."
  },
  {
   "property": "C79",
   "status": "proved",
   "theorems": [
    "Davs2.Sx.C79_splitFlag",
    "Davs2.Sx.C79_dmhMode",
    "Davs2.Sx.C79_intraCuType",
    "Davs2.Sx.C79_intraPmode",
    "Davs2.Sx.C79_wpm",
    "Davs2.Sx.C79_dirSkip",
    "Davs2.Sx.C79_cuTypeS",
    "Davs2.Sx.C79_intraPmodeC",
    "Davs2.Sx.C79_cuType",
    "Davs2.Sx.C79_dirsB",
    "Davs2.Sx.C79_refFrame",
    "Davs2.Sx.C79_interPF",
    "Davs2.Sx.C79_deltaQp",
    "Davs2.Sx.C79_cbp",
    "Davs2.Sx.C79_mvd",
    "Davs2.Sx.C79_level",
    "Davs2.Sx.C79_decoder",
    "Davs2.Sx.C79_script",
    "Davs2.Sx.C79_prefix_free",
    "Davs2.Sx.C79_deltaQp_range"
   ],
   "note": "Element by element; the composition over a whole coding unit is not stated here."
  },
  {
   "property": "C80",
   "status": "proved",
   "theorems": [
    "Davs2.Sx.C80_luma",
    "Davs2.Sx.C80_chroma",
    "Davs2.Sx.C80_decoder",
    "Davs2.Sx.C80_unique",
    "Davs2.Sx.C80_scans",
    "Davs2.Sx.C80_wraps"
   ],
   "note": "Round trip against an independent encoder-side code of the whole block (Spec/CoeffCode): generic over lawful decoders, instantiated for the arithmetic decoder and for a list of bins. Levels of more than 16 bits are truncated by the code (C80_wraps shows 40000 read as -25536); these are outside the standard's range and excluded by hypothesis."
  },
  {
   "property": "C81",
   "status": "partial",
   "theorems": [
    "Davs2.Vc.C81_inside_partial",
    "Davs2.Vc.C81_plane_partial",
    "Davs2.Vc.C81_filter_partial",
    "Davs2.Vc.C81_outside_violated",
    "Davs2.Vc.C81_mask_row_violated",
    "Davs2.Vc.C81_weight_violated"
   ],
   "note": "Proved for regions at the left border or of a width that is a multiple of 16, with weights that fit the 8-bit arithmetic. Missing because false: other regions overwrite samples to their right (C81_outside_violated), larger weights are truncated (C81_weight_violated), the mask table is read before its start (C81_mask_row_violated). The meaning of the vector instructions (Model/Vec) is trusted."
  },
  {
   "property": "C82",
   "status": "proved",
   "theorems": [
    "Davs2.Vc.C82_luma_ver",
    "Davs2.Vc.C82_luma_hor",
    "Davs2.Vc.C82_chroma_ver",
    "Davs2.Vc.C82_chroma_hor",
    "Davs2.Vc.C82_luma",
    "Davs2.Vc.C82_chroma",
    "Davs2.Vc.C82_thresholds"
   ],
   "note": "Equality of the vector version with the C version, edge by edge and for whole pictures. The meaning of the vector instructions (Model/Vec) is trusted."
  },
  {
   "property": "C83",
   "status": "proved",
   "theorems": [
    "Davs2.Vc.C83_edge0",
    "Davs2.Vc.C83_edge90",
    "Davs2.Vc.C83_edge135",
    "Davs2.Vc.C83_edge45",
    "Davs2.Vc.C83_band",
    "Davs2.Vc.C83_small"
   ],
   "note": "SSE4 and AVX2 block functions equal the C functions for 8-bit samples and offsets that fit a byte (the parameters give -7..7). Loads beyond the block are not checked for bounds."
  },
  {
   "property": "C84",
   "status": "partial",
   "theorems": [
    "Davs2.Vc.C84_luma",
    "Davs2.Vc.C84_chroma_partial",
    "Davs2.Vc.C84_chroma_violated",
    "Davs2.Vc.C84_mask_violated",
    "Davs2.Vc.C84_average"
   ],
   "note": "Luma proved for every fraction, block and both instruction sets; average proved in place. Chroma proved except when the byte behind the table of chroma filters is 6 and the fractions are (not 0, 7/8): violated there by witness (100 becomes 19), since the code tests coef_y[6] of a 4-entry row. Widths that are multiples of 8 load a mask in front of its table (unused). The copy of a block at a whole position is C107."
  },
  {
   "property": "C85",
   "status": "partial",
   "theorems": [
    "Davs2.Mo.C85_partial",
    "Davs2.Mo.C85_reader",
    "Davs2.Mo.C85_I_picture",
    "Davs2.Mo.C85_sequence_partial",
    "Davs2.Mo.C85_no_reference_violated",
    "Davs2.Mo.C85_scene_violated"
   ],
   "note": "Proved for P, F and B pictures with references and coding units read without error; false for P pictures whose header announces no reference and for skipped units of S pictures (witnesses); overflow of vector scaling is C34."
  },
  {
   "property": "C86",
   "status": "partial",
   "theorems": [
    "Davs2.Mo.C86_slices_partial",
    "Davs2.Mo.C86_stateless_partial",
    "Davs2.Mo.C85_scene_violated"
   ],
   "note": "Proved for P, F and B pictures with references and coding units read without error; false for S pictures (Mo.C85_scene_violated)."
  },
  {
   "property": "C87",
   "status": "proved",
   "theorems": [
    "Davs2.Mo.C87_saved_motion"
   ],
   "note": ""
  },
  {
   "property": "C88",
   "status": "proved",
   "theorems": [
    "Davs2.Rp.C88_intra_picture",
    "Davs2.Rp.C88_no_error",
    "Davs2.Rp.C88_all_samples"
   ],
   "note": "For both planes, any in-loop filter effect; pictures for which no error is reported. Content of coding units as the parser delivers it; parsing errors not modelled."
  },
  {
   "property": "C89",
   "status": "proved",
   "theorems": [
    "Davs2.Rp.C89_slices_independent"
   ],
   "note": "Before in-loop filtering; parsing dependence between slices is C60."
  },
  {
   "property": "C90",
   "status": "partial",
   "theorems": [
    "Davs2.Rp.C90_many_slices_violated",
    "Davs2.Rp.C90_partial"
   ],
   "note": "Violated from 256 slices on; partial: up to 255 slices."
  },
  {
   "property": "C91",
   "status": "proved",
   "theorems": [
    "Davs2.Mo.C91_b_candidates",
    "Davs2.Mo.C91_b_closed",
    "Davs2.Mo.C91_f_candidates",
    "Davs2.Mo.C91_f_closed"
   ],
   "note": "Both functions modelled statement by statement over a list of neighbours; equal to a closed specification over the scan order; the picture model uses a third, closed form, also proved equal."
  },
  {
   "property": "C92",
   "status": "proved",
   "theorems": [
    "Davs2.Mo.C92_again",
    "Davs2.Mo.C92_b_spatial",
    "Davs2.Mo.C92_f_spatial"
   ],
   "note": "For pictures whose syntax elements are in range and whose motion derivation ends without fault (C85). Read errors are not modelled."
  },
  {
   "property": "C93",
   "status": "proved",
   "theorems": [
    "Davs2.Mo.C93_pf_temporal",
    "Davs2.Mo.C93_b_temporal",
    "Davs2.Mo.C93_along"
   ],
   "note": "Vertical components for frame pictures only (in field pictures the code adds parity corrections); stored vectors are the exact values modulo 2^16; C93_along bounds the error when the exact value fits in 16 bits."
  },
  {
   "property": "C94",
   "status": "proved",
   "theorems": [
    "Davs2.Mo.C94_explicit"
   ],
   "note": "Frame pictures (in field pictures the vertical component has a parity correction, covered by C59). The blocks meet C85's hypotheses on syntax (delivered by the reader, C85_reader)."
  },
  {
   "property": "C95",
   "status": "proved",
   "theorems": [
    "Davs2.Si.C95_table",
    "Davs2.Si.C95_same_as_c",
    "Davs2.Si.C95_area",
    "Davs2.Si.C95_second4x4",
    "Davs2.Si.C95_second",
    "Davs2.Si.C95_second_area",
    "Davs2.Si.C95_transform"
   ],
   "note": "All functions written with intrinsics, statement by statement; the assembler functions idct_4x4_sse2, idct_8x8_sse2 and idct_8x8_ssse3 are not modelled and appear as entries without a program. Alignment of addresses is not modelled."
  },
  {
   "property": "C96",
   "status": "proved",
   "theorems": [
    "Davs2.Cs.C96_picture",
    "Davs2.Cs.C96_decoder",
    "Davs2.Cs.C96_slice",
    "Davs2.Cs.C96_unique"
   ],
   "note": "Round trip of whole pictures against an encoder-side definition of the syntax (Spec/CuSyntax, Spec/SliceSyntax), for any arithmetic decoder that follows its laws and for the one of the code; slices start at the left border and have different numbers (C97 has the other case); for S pictures the weighted skip modes left over are assumed to be zero (C97)."
  },
  {
   "property": "C97",
   "status": "partial",
   "theorems": [
    "Davs2.Cs.C97_independent_partial",
    "Davs2.Cs.C97_S_violated",
    "Davs2.Cs.C97_column_violated"
   ],
   "note": "Proved for slices that start at the left border in pictures other than S pictures. Fails for S pictures (weighted skip mode of an earlier picture is used) and for slices that start within a row of largest coding units (intra modes of the slice to the left are used)."
  },
  {
   "property": "C98",
   "status": "partial",
   "theorems": [
    "Davs2.Cs.C98_complete_partial",
    "Davs2.Cs.C98_violated"
   ],
   "note": "Proved for all blocks but the luma block of a unit without transform split; its result is not tested, and three bytes of payload give an accepted unit with pattern -1, which then indexes the table of inverse transforms."
  },
  {
   "property": "C99",
   "status": "partial",
   "theorems": [
    "Davs2.Ir.C99_partial",
    "Davs2.Ir.C99_content",
    "Davs2.Ir.C99_wrap_violated"
   ],
   "note": "Pictures up to 8184 samples in each direction and displaced vectors that stay within 16 bits; near the end of the range the displaced vector wraps (C99_wrap_violated). C99_content: the unit is one block of fixed content, as C88 and C89 assume for inter units."
  }
 ]
}