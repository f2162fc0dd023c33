{"id": "C01", "title": "Emulation-prevention removal is the inverse of the standard's insertion", "statement": "If a picture or slice payload is escaped as the AVS2 standard prescribes (after every 22 consecutive zero bits at a byte-aligned position the bits '10' are inserted) and handed to the decoder, the payload bits the decoder goes on to parse are exactly the original payload bits, in order, and the cleaned data is never longer than the packet.", "quantifier": "every payload bit sequence of every length", "why_tests_cant": "The set of payloads is infinite and the interesting cases are combinations of escape positions at all four bit phases; a test suite samples a few.", "anchors": ["source/common/bitstream.cc: bs_dispose_pseudo_code"]}
{"id": "C02", "title": "Data without escape patterns passes through unchanged", "statement": "A unit that contains no 00 00 02 pattern, and any sequence header / extension / user data unit regardless of its content, is handed to the parser byte for byte as it was received.", "quantifier": "every byte string; every mix of unit types in it", "why_tests_cant": "Requires that no internal phase of the byte/bit splitter is ever entered, for all strings.", "anchors": ["source/common/bitstream.cc: bs_dispose_pseudo_code"]}
{"id": "C03", "title": "Unsigned Exp-Golomb codes decode to the value that was encoded", "statement": "Reading an unsigned Exp-Golomb element returns the encoded number and advances the bit position by exactly the code length, wherever in the buffer the code starts.", "quantifier": "every value up to 2^31-2, every bit offset, every surrounding buffer content", "why_tests_cant": "Infinite buffers and offsets; off-by-one errors show up only at particular alignments.", "anchors": ["source/common/vlc.h: ue_v, get_vlc_symbol, read_linfo, read_bits"]}
{"id": "C04", "title": "Signed Exp-Golomb codes decode to the value that was encoded", "statement": "Reading a signed Exp-Golomb element returns the encoded signed number and advances by the code length; the mapping between code numbers and signed values is a bijection.", "quantifier": "every signed value in range, every bit offset, every buffer", "why_tests_cant": "Same as C03, plus the parity/sign mapping must be bijective over an unbounded domain.", "anchors": ["source/common/vlc.h: se_v, get_vlc_symbol"]}
{"id": "C05", "title": "Fixed-length fields are read as big-endian numbers", "statement": "Reading an n-bit field returns the n bits at the current position as a big-endian number, advances by n, and n1+n2 bits read in two steps give the same bits as one step.", "quantifier": "every n up to 32, every position, every buffer long enough", "why_tests_cant": "All alignments, lengths and contents.", "anchors": ["source/common/vlc.h: u_v, u_flag, read_bits"]}
{"id": "C06", "title": "Header parsing never reads outside the packet", "statement": "Whatever bytes a packet contains, parsing its headers reads only bytes of that packet.", "quantifier": "every byte string, every sequence of element reads", "why_tests_cant": "Out-of-bounds reads are silent and depend on truncation points; tests cannot enumerate them.", "anchors": ["source/common/vlc.h: read_bits, get_vlc_symbol", "source/common/bitstream.cc: bs_init"]}
{"id": "C07", "title": "Start-code search returns the first start code", "statement": "Searching a buffer for a start code returns the lowest position holding 00 00 01 xx completely inside the buffer, and reports none exactly when there is none; it never looks past the end.", "quantifier": "every buffer", "why_tests_cant": "For all lengths and contents.", "anchors": ["source/common/bitstream.cc: find_start_code, bs_get_start_code"]}
{"id": "C08", "title": "Picture start detection across packets finds every picture start code", "statement": "Splitting a stream at arbitrary points and scanning the pieces finds the same picture start positions as scanning the stream in one piece, and no picture start code is missed.", "quantifier": "every byte stream, every way of cutting it into pieces", "why_tests_cant": "Combinatorial in cut points.", "anchors": ["source/common/bitstream.cc: find_pic_start_code"]}
{"id": "C09", "title": "Packets are assembled into pictures without loss, duplication or reordering", "statement": "Concatenating the units handed to the decoder gives exactly the concatenation of all packets sent so far, in order; a unit boundary lies exactly before a packet that begins with a sequence header, sequence end, picture or video-edit code; each unit carries the timestamps of its last packet.", "quantifier": "every sequence of packets", "why_tests_cant": "Unbounded packet histories.", "anchors": ["source/common/davs2.cc: davs2_pack_es_unit, davs2_decoder_send_packet"]}
{"id": "C10", "title": "Packet assembly never writes outside its buffers", "statement": "Whatever packets are sent, the assembled unit fits into the buffer allocated for it.", "quantifier": "every sequence of packets of every size", "why_tests_cant": "The overflow needs a specific order of a small and a very large packet.", "anchors": ["source/common/davs2.cc: davs2_pack_es_unit, MAX_ES_FRAME_SIZE"]}
{"id": "C11", "title": "Malformed packets are rejected without any effect", "statement": "A packet that is empty, shorter than four bytes or does not begin with 00 00 01 makes the send call return an error and leaves the decoder exactly as before; every other packet is accepted.", "quantifier": "every packet, every decoder state", "why_tests_cant": "All states times all packets.", "anchors": ["source/common/davs2.cc: davs2_decoder_send_packet"]}
{"id": "C12", "title": "Flushing decodes the final picture like any other picture", "statement": "The last buffered picture is decoded from the same cleaned bit sequence whether it is decoded because another picture start arrived or because the user flushed.", "quantifier": "every packet history", "why_tests_cant": "Depends on whether the last picture happens to contain an escape pattern.", "anchors": ["source/common/davs2.cc: davs2_decoder_flush, davs2_decoder_send_packet", "source/common/bitstream.cc: bs_dispose_pseudo_code"]}
{"id": "C13", "title": "Output order: the picture delivered is the one with the smallest picture order count waiting", "statement": "Each picture delivered has a picture order count not larger than that of any finished picture still waiting, every picture handed to the output stage is delivered at most once, and none disappears from the waiting list without being delivered.", "quantifier": "every interleaving of picture completions and receive/flush calls", "why_tests_cant": "All arrival orders and interleavings.", "anchors": ["source/common/davs2.cc: output_list_get_one_output_picture, decoder_get_output", "source/common/decoder.cc: task_send_picture_to_output_list"]}
{"id": "C14", "title": "A sequence header is announced before the first picture that needs it, once", "statement": "A receive call announces a newly parsed sequence header exactly once and never in the same call that delivers a picture.", "quantifier": "every history of calls", "why_tests_cant": "Unbounded histories.", "anchors": ["source/common/davs2.cc: decoder_get_output", "source/common/header.cc: task_set_sequence_head"]}
{"id": "C15", "title": "Every picture the decoder accepts is eventually delivered by flushing", "statement": "After a picture has been accepted for decoding, repeated flush calls eventually deliver it and then report the end of the stream.", "quantifier": "every accepted stream, including damaged ones", "why_tests_cant": "Liveness over all streams.", "anchors": ["source/common/davs2.cc: davs2_decoder_flush, output_list_get_one_output_picture", "source/common/decoder.cc: decoder_decode_picture_data"]}
{"id": "C16", "title": "A picture buffer is never recycled while somebody still uses it", "statement": "A buffer that is waiting for output, still being decoded or used as a reference by a picture being decoded is never handed out as the target of a new picture, and each buffer's use count equals the number of its users.", "quantifier": "every sequence of picture starts, completions and releases", "why_tests_cant": "All histories of allocation and release.", "anchors": ["source/common/header.cc: task_get_references, release_one_frame, find_free_frame", "source/common/decoder.cc: task_release_frames"]}
{"id": "C17", "title": "Reference pictures are the ones the bitstream asks for", "statement": "When a picture is accepted, each of its references is a stored picture with exactly the coding order the reference set names and is marked as still needed; if any is missing the picture is rejected and no use count changes.", "quantifier": "every stored-picture state and every reference set", "why_tests_cant": "All DPB states and RPS contents.", "anchors": ["source/common/header.cc: task_get_references"]}
{"id": "C18", "title": "Accepted sequence headers describe a decodable format", "statement": "If a sequence header is accepted then width and height are between 16 and 16383, the chroma format is 4:2:0 or 4:0:0, sample precision is one of those supported, the coding-tree size is 16, 32 or 64, the frame-rate code is one of the defined ones and the coded dimensions are the smallest multiples of 8 covering the display dimensions.", "quantifier": "every bit string given as sequence header", "why_tests_cant": "2^n header contents.", "anchors": ["source/common/header.cc: parse_sequence_header"]}
{"id": "C19", "title": "Picture coding order is unwrapped monotonically", "statement": "The coding order derived for each picture is strictly larger than that of its predecessor and congruent to the 8-bit number in the stream, and the output order equals coding order plus display delay minus reorder delay.", "quantifier": "every sequence of pictures", "why_tests_cant": "Wrap-around happens every 256 pictures, any number of times.", "anchors": ["source/common/header.cc: parse_picture_header, parse_picture_header_intra, parse_picture_header_inter"]}
{"id": "C20", "title": "Header scanning always terminates and makes progress", "statement": "For every input, the search for picture data in a unit ends after at most one pass over the unit, and reports picture, no picture or error.", "quantifier": "every byte string", "why_tests_cant": "Termination for all inputs.", "anchors": ["source/common/header.cc: parse_header"]}
{"id": "C21", "title": "A header can not make the decoder write past its reference tables", "statement": "Every accepted header names at most as many reference and removable pictures as the tables hold.", "quantifier": "every header bit string", "why_tests_cant": "2^n header contents.", "anchors": ["source/common/header.cc: parse_sequence_header, parse_picture_header_inter, parse_picture_header_intra", "source/common/common.h: rps_t, AVS2_MAX_REFS"]}
{"id": "C22", "title": "Announced and delivered bit depth agree", "statement": "The bit depth announced with the sequence header equals the bit depth of the pictures delivered for that sequence.", "quantifier": "every accepted sequence header", "why_tests_cant": "Depends on a combination of profile, sample precision and encoding precision fields.", "anchors": ["source/common/header.cc: task_set_sequence_head", "source/common/davs2.cc: davs2_write_a_frame", "source/common/frame.cc: davs2_frame_new"]}
{"id": "C23", "title": "Picture buffers: planes do not overlap and fit the allocation", "statement": "For every picture size, the luma, chroma and motion planes with their padding, carved out of one allocation with alignment at each step, are pairwise disjoint and lie inside the allocation, whatever the alignment of the allocation is.", "quantifier": "every accepted width, height, chroma format and base address", "why_tests_cant": "All sizes times all base addresses.", "anchors": ["source/common/frame.cc: davs2_frame_get_size, davs2_frame_new"]}
{"id": "C24", "title": "Padding reproduces the picture edge", "statement": "After all rows of a picture have been padded, every sample in the padding area equals the nearest sample of the picture.", "quantifier": "every picture size, every content, every coding-tree size", "why_tests_cant": "All sizes and contents.", "anchors": ["source/common/frame.cc: pad_line_lcu, pad_line_pixel"]}
{"id": "C25", "title": "Worker pool: every job runs exactly once, in submission order", "statement": "Jobs submitted to the worker pool are started in submission order, each at most once, none is lost or duplicated while the pool is running, and a wait call returns the result of the job it was asked for.", "quantifier": "every number of workers, every interleaving of submitters, workers and waiters", "why_tests_cant": "All schedules.", "anchors": ["source/common/threadpool.cc: davs2_threadpool_run, davs2_threadpool_wait, proc_thread_main"]}
{"id": "C26", "title": "Shared queues are first-in first-out and lose nothing", "statement": "The queues used between the API and the decoding tasks deliver each element exactly once in insertion order, for every interleaving of producers and consumers.", "quantifier": "every history of append and remove operations", "why_tests_cant": "All histories.", "anchors": ["source/common/common.cc: xl_append, xl_remove_head, xl_remove_head_ex"]}
{"id": "C27", "title": "Opening the decoder always yields a usable thread configuration", "statement": "For every requested number of threads and every CPU count, the decoder uses between 1 and 8 worker threads and a fixed number of decoding tasks that fits its tables.", "quantifier": "every parameter value", "why_tests_cant": "All integers.", "anchors": ["source/common/davs2.cc: davs2_decoder_open"]}
{"id": "C28", "title": "Entropy-decoder probability states stay valid", "statement": "Whatever bits are decoded, each adaptive probability state stays inside its valid range, so every table lookup made with it is in range and the renormalisation loop terminates; the table-driven update equals the arithmetic rule of the standard.", "quantifier": "every sequence of decoded symbols of any length", "why_tests_cant": "Unbounded histories.", "anchors": ["source/common/aec.cc: aec_init_context_tab, update_ctx_mps, update_ctx_lps, tab_ctx_mps, tab_ctx_lps"]}
{"id": "C29", "title": "The entropy decoder's interval stays consistent", "statement": "After any sequence of symbol decodings, adaptive or equiprobable, the interval registers remain within their widths and the offset remains below the range, so no shift or subtraction ever overflows.", "quantifier": "every payload and every sequence of decoding operations", "why_tests_cant": "Unbounded histories.", "anchors": ["source/common/aec.cc: biari_decode_symbol, biari_decode_symbol_eq_prob, biari_decode_final"]}
{"id": "C30", "title": "Entropy decoding reads exactly the slice payload", "statement": "The bit reader returns the payload bits in order, never touches a byte outside the slice, and signals exhaustion instead of inventing data.", "quantifier": "every payload and every number of reads", "why_tests_cant": "Word-wise refills at every alignment, and behaviour after exhaustion.", "anchors": ["source/common/aec.cc: aec_get_next_bit, aec_get_next_n_bit, aec_start_decoding"]}
{"id": "C31", "title": "Decoding a run of symbols in one go equals decoding them one by one", "statement": "The batched decoding routine returns the same value and leaves the same decoder state as repeated single-symbol decoding.", "quantifier": "every decoder state and payload", "why_tests_cant": "All states.", "anchors": ["source/common/aec.cc: biari_decode_symbol_continue0, biari_decode_symbol_continu0_ext"]}
{"id": "C32", "title": "Syntax elements decoded from any bits are in range", "statement": "Whatever the payload, each decoded syntax element (prediction types, directions, indices, modes, coefficient positions) lies in the range the reconstruction tables are dimensioned for.", "quantifier": "every payload", "why_tests_cant": "Adversarial bitstreams.", "anchors": ["source/common/aec.cc: aec_read_dmh_mode, aec_read_dir_skip_mode, aec_read_intra_pmode, aec_read_intra_pmode_c, aec_read_last_cg_pos, aec_read_run_level, aec_read_ref_frame"]}
{"id": "C33", "title": "Coefficients are written inside their block", "statement": "Whatever the payload, each coefficient decoded is stored at a position inside the transform block being decoded, and no position is written twice.", "quantifier": "every payload, block shape and scan order", "why_tests_cant": "Adversarial bitstreams; all tables.", "anchors": ["source/common/aec.cc: cu_get_block_coeffs", "source/common/scantab.h"]}
{"id": "C34", "title": "Motion vectors derived from neighbours stay in range", "statement": "Motion vectors derived by prediction and temporal scaling are clipped to the legal range and never wrap around.", "quantifier": "all motion vectors and all temporal distances", "why_tests_cant": "2^32 combinations and more.", "anchors": ["source/common/predict.h: scale_mv_skip, scale_mv_skip_y, scale_mv_biskip, scale_mv_default, pmvr_mv_derivation", "source/common/predict.cc: get_mvp_default"]}
{"id": "C35", "title": "The median motion predictor is a median", "statement": "The predictor formed from three neighbours lies between the smallest and the largest of them in each component; mirroring all three mirrors it, and the order in which the neighbours are visited does not matter.", "quantifier": "all triples of vectors", "why_tests_cant": "All triples.", "anchors": ["source/common/predict.cc: derive_median_mv, derive_mv_pred"]}
{"id": "C36", "title": "Motion compensation reads only the padded reference picture", "statement": "For every block position, block size and motion vector, the samples read by luma and chroma interpolation lie inside the reference picture extended by its padding.", "quantifier": "all picture sizes accepted, all blocks, all motion vectors", "why_tests_cant": "All combinations.", "anchors": ["source/common/cu.cc: cu_get_mc_pos, cu_get_mc_pos_mv", "source/common/mc.cc: mc_luma, mc_chroma"]}
{"id": "C37", "title": "Interpolation preserves flat areas and the sample range", "statement": "Interpolating a flat area gives the same flat area at every fractional position, every output is a legal sample value, and no intermediate value overflows.", "quantifier": "all sample values, fractional positions and block sizes", "why_tests_cant": "All contents.", "anchors": ["source/common/mc.cc: intpl_luma_block_hor, intpl_luma_block_ver, intpl_luma_block_ext, intpl_chroma_block_*"]}
{"id": "C38", "title": "The fast inverse transforms equal the transform matrix", "statement": "Each butterfly inverse transform computes exactly the product with the standard's integer matrix followed by rounding and clipping, with no intermediate overflow for 16-bit coefficients.", "quantifier": "all coefficient blocks", "why_tests_cant": "2^(16*N*N) blocks.", "anchors": ["source/common/transform.cc: partialButterflyInverse4/8/16/32, inv_wavelet_64x64_c"]}
{"id": "C39", "title": "Reconstruction stays in the sample range", "statement": "Adding any residual to any prediction produces a legal sample value and equals saturation of the exact sum.", "quantifier": "all predictions, residuals and bit depths", "why_tests_cant": "All values.", "anchors": ["source/common/pixel.cc: add_ps", "source/common/common.h: davs2_clip_pixel, davs2_clip3"]}
{"id": "C40", "title": "Deblocking never leaves the range of its inputs", "statement": "Every sample written by the deblocking filter lies between the smallest and the largest sample read for that line, edges with small or large steps are left alone, and the filter treats both sides alike.", "quantifier": "all sample values, thresholds and edge positions", "why_tests_cant": "All values.", "anchors": ["source/common/deblock.cc: deblock_edge_ver_c, deblock_edge_hor_c, deblock_edge_ver, deblock_edge_hor"]}
{"id": "C41", "title": "Every block edge is deblocked exactly once", "statement": "Over the whole picture each vertical and each horizontal 8x8 edge is visited exactly once.", "quantifier": "all picture sizes and coding-tree sizes", "why_tests_cant": "All sizes.", "anchors": ["source/common/deblock.cc: davs2_lcu_deblock"]}
{"id": "C42", "title": "Sample adaptive offset does what its definition says", "statement": "Each edge-offset and band-offset filter changes each sample exactly as the per-sample definition (class from two neighbours, or band of the value; add offset; saturate).", "quantifier": "all samples, offsets, block sizes and neighbour availabilities", "why_tests_cant": "The implementation carries signs between samples and rows in buffers.", "anchors": ["source/common/sao.cc: sao_block"]}
{"id": "C43", "title": "SAO and ALF regions tile the picture", "statement": "The shifted per-coding-tree regions processed by the in-loop filters cover every sample of the picture exactly once.", "quantifier": "all picture sizes and coding-tree sizes, all slice layouts", "why_tests_cant": "All sizes and layouts.", "anchors": ["source/common/sao.cc: sao_get_neighbor_avail, sao_lcu", "source/common/alf.cc: deriveBoundaryAvail, alf_lcu_block"]}
{"id": "C44", "title": "Adaptive loop filter parameters are safe and neutral on flat areas", "statement": "Filter parameters accepted from the bitstream never index outside the filter tables, flat areas are unchanged by filters without offset and outputs are legal samples.", "quantifier": "all parameter sets", "why_tests_cant": "Adversarial bitstreams.", "anchors": ["source/common/alf.cc: alf_recon_coefficients, alf_filter_block1", "source/common/header.cc: read_alf_coeff"]}
{"id": "C45", "title": "The coding-tree split covers the picture exactly", "statement": "For every sequence of split decisions, each 8x8 block of the picture inside a coding tree belongs to exactly one coding unit, all coding units lie inside the picture, and their coefficient storage never overlaps.", "quantifier": "all picture sizes and all split decisions", "why_tests_cant": "Exponentially many trees.", "anchors": ["source/common/cu.cc: decode_lcu_parse, decode_lcu_recon, cu_read_end, tab_b8xy_to_zigzag"]}
{"id": "C46", "title": "Neighbour availability matches decoding order", "statement": "A top-right or bottom-left neighbour is treated as available only if it was decoded before the current block, and always if it was.", "quantifier": "all block positions in all coding-tree sizes", "why_tests_cant": "Table of hundreds of entries against a recursive order.", "anchors": ["source/common/intra.cc: tab_DL_Avail64, tab_TR_Avail64, get_intra_neighbors"]}
{"id": "C47", "title": "Intra mode derivation is a bijection onto legal modes", "statement": "For any pair of neighbouring modes, the coded mode indices map one-to-one onto the legal prediction modes.", "quantifier": "all neighbour modes and all coded indices", "why_tests_cant": "All combinations of state.", "anchors": ["source/common/cu.cc: cu_read_intrapred_mode_luma"]}
{"id": "C48", "title": "Intra prediction stays in range and preserves flat borders", "statement": "For every border content the predicted samples are legal, and a flat border predicts a flat block.", "quantifier": "all borders, modes and block shapes", "why_tests_cant": "All contents.", "anchors": ["source/common/intra.cc: intra_pred_dc_c, intra_pred_plane_c, intra_pred_bilinear_c, intra_pred_ang_x_c, intra_pred_ang_y_c, intra_pred_ang_xy_c"]}
{"id": "C49", "title": "Dequantisation saturates and keeps zeros", "statement": "Scaling any coefficient level gives a 16-bit value equal to the saturated exact result and zero stays zero.", "quantifier": "all levels, quantiser settings and block sizes", "why_tests_cant": "All values.", "anchors": ["source/common/quant.cc: dequant_c", "source/common/aec.cc: cu_get_block_coeffs"]}
{"id": "C50", "title": "Prediction and transform units partition the coding unit", "statement": "For every prediction type and every transform split, the units are disjoint and cover the coding unit.", "quantifier": "all types and sizes", "why_tests_cant": "Packed-integer shifts on tables.", "anchors": ["source/common/cu.cc: cu_init_prediction_units, cu_init_transform_units"]}
{"id": "C51", "title": "The sample player cuts the file into packets without loss", "statement": "The packets the reference application sends are a partition of the input file and every packet but possibly the first begins with a start code.", "quantifier": "every input file", "why_tests_cant": "All byte strings.", "anchors": ["source/test/test.c: test_decoder", "source/test/inputstream.h: find_start_code, count_frames"]}
{"id": "C52", "title": "Waiting for a reference row never returns early", "statement": "A block is only predicted from reference rows that have been completely reconstructed, and a wait for a row that is being produced returns.", "quantifier": "all schedules of the producing and consuming tasks", "why_tests_cant": "All schedules.", "anchors": ["source/common/cu.cc: decoder_wait_lcu_row, decoder_wait_row", "source/common/decoder.cc: decode_lcu_row / rec rows"]}
{"id": "C53", "title": "Receiving never waits for data the caller has not sent", "statement": "A receive call returns; it never blocks waiting for a picture that can only be decoded from data the caller has still to send.", "quantifier": "every history of calls and every schedule of the decoding tasks", "why_tests_cant": "A call that never returns in one particular schedule.", "anchors": ["source/common/davs2.cc: decoder_get_output, output_list_get_one_output_picture, davs2_decoder_recv_frame"]}
{"id": "C54", "title": "Sequence headers are read as the format prescribes", "statement": "Every legal sequence header written element by element as the format prescribes is accepted, every element is delivered with the written value, and reading goes on at the next byte boundary.", "quantifier": "all legal sequence headers at any bit position", "why_tests_cant": "Hundreds of bits of independent fields, conditional elements and lists.", "anchors": ["source/common/header.cc: parse_sequence_header"]}
{"id": "C55", "title": "The announced bit rate is the transmitted one", "statement": "The bit rate announced with the sequence header is 400 times the 30-bit number transmitted in it.", "quantifier": "all transmitted rates", "why_tests_cant": "2^30 values; the product wraps only for very large ones.", "anchors": ["source/common/header.cc: parse_sequence_header", "source/common/davs2.h: davs2_seq_info_t"]}
{"id": "C56", "title": "Picture headers are read as the format prescribes", "statement": "Every legal intra or inter picture header written element by element as the format prescribes is accepted under its sequence header, every element is delivered with the written value, and reading goes on at the next byte boundary.", "quantifier": "all legal sequence and picture headers", "why_tests_cant": "Which elements are present depends on the sequence header and on earlier elements.", "anchors": ["source/common/header.cc: parse_picture_header_intra, parse_picture_header_inter", "source/common/alf.cc: alf_read_param"]}
{"id": "C57", "title": "A send call that has to wait gets a free packet buffer", "statement": "When all packet buffers are in use, a send call waits until a decoding task gives one back and then goes on with that buffer; it never goes on without one.", "quantifier": "every interleaving of senders, decoding tasks and wake-ups, including wake-ups without cause", "why_tests_cant": "Depends on a wake-up the operating system is free to give and on a race for the buffer.", "anchors": ["source/common/common.cc: xl_remove_head_ex", "source/common/davs2.cc: davs2_pack_es_unit"]}
{"id": "C58", "title": "Entropy decoding is exact arithmetic decoding", "statement": "The symbols obtained from a slice payload are those of ideal arithmetic decoding: the payload read as a binary fraction is located in the unit interval, which is divided at each symbol in the proportion of the current probability estimate; the register-based decoder never deviates from this by truncation, however many symbols are decoded.", "quantifier": "all payloads and all sequences of adaptive, equiprobable and terminating symbols", "why_tests_cant": "The state depends on the whole past; deviations need a particular alignment of the payload with the register widths.", "anchors": ["source/common/aec.cc: aec_start_decoding, biari_decode_symbol, biari_decode_symbol_eq_prob, biari_decode_final"]}
{"id": "C59", "title": "The quantiser always selects an entry of the quantiser tables", "statement": "Whatever slice quantiser and quantiser changes a stream carries, each coding unit is scaled with a step taken from the quantiser tables.", "quantifier": "all slice quantisers and sequences of quantiser changes", "why_tests_cant": "The quantiser is a running sum over the coding units of a row; it leaves the tables only for adversarial sequences.", "anchors": ["source/common/header.cc: parse_slice_header, is_valid_qp", "source/common/aec.cc: cu_read_cbp, aec_read_cu_delta_qp", "source/common/quant.h: cu_get_quant_params, cu_get_chroma_qp"]}
{"id": "C60", "title": "Slices are independent of each other", "statement": "Decoding a slice gives the same intra prediction modes whatever the other slices of the picture contain, so that the loss of one slice cannot damage another.", "quantifier": "all pictures, slice layouts and slice contents", "why_tests_cant": "All layouts and contents of other slices.", "anchors": ["source/common/decoder.cc: check_slice_header", "source/common/cu.cc: cu_read_intrapred_mode_luma"]}
{"id": "C61", "title": "A slice appears where its header says", "statement": "The picture area a slice is decoded into is the one given by the position fields of its header, also when another slice of the picture was lost.", "quantifier": "all sequences of slices and losses", "why_tests_cant": "All loss patterns.", "anchors": ["source/common/header.cc: parse_slice_header", "source/common/decoder.cc: decode_one_lcu_row, check_slice_header"]}
{"id": "C62", "title": "Slice headers are read as written", "statement": "Every legal slice header, for every picture size and coding-tree size, is read back field by field; a quantiser that the tables do not know is rejected.", "quantifier": "all slice headers and picture formats", "why_tests_cant": "All combinations of optional fields.", "anchors": ["source/common/header.cc: parse_slice_header"]}
{"id": "C63", "title": "Every specialised intra predictor equals the general one", "statement": "For each of the 33 intra modes, each block shape and each sample, the routine selected for the mode gives the value of the general formula for that direction, although it uses its own tables, mirrored copies, repeated rows and early exits.", "quantifier": "all modes, block shapes, neighbour contents and availabilities", "why_tests_cant": "Two dozen routines with their own loops; differences show only for particular borders and shapes.", "anchors": ["source/common/intra.cc: intra_pred_ang_x_3_c .. intra_pred_ang_y_32_c, davs2_intra_pred_init"]}
{"id": "C64", "title": "Intra prediction depends on the available neighbours only", "statement": "The samples a block is predicted from are the available neighbours, missing ones replaced by repetition or mid-grey as laid down; the position of the block in its coding tree unit and what earlier blocks left in the scratch buffers have no influence on the prediction.", "quantifier": "all block shapes, availabilities, positions, neighbour contents and scratch contents", "why_tests_cant": "Stale scratch contents differ from run to run.", "anchors": ["source/common/intra.cc: fill_reference_samples_0_c, fill_reference_samples_x_c, fill_reference_samples_y_c, fill_reference_samples_xy_c, davs2_get_intra_pred", "source/common/intra.h: intra_pred"]}
{"id": "C65", "title": "Filtering while decoding equals filtering afterwards", "statement": "The picture that is put out is the one obtained by deblocking the whole picture, then applying sample adaptive offset to the whole result, then the adaptive loop filter to that, although the decoder filters each row of coding trees right after decoding it.", "quantifier": "all picture and coding-tree sizes, contents, filter parameters and buffer contents", "why_tests_cant": "The order of filtering matters only in a few lines around each row, for particular contents.", "anchors": ["source/common/decoder.cc: decode_one_lcu_row", "source/common/sao.cc: sao_lcurow", "source/common/alf.cc: alf_lcurow", "source/common/frame.cc: davs2_frame_copy_lcurow"]}
{"id": "C66", "title": "In-loop filtering does not depend on earlier pictures", "statement": "The filtered samples of a picture are a function of that picture alone; what the decoder handle processed before has no influence.", "quantifier": "all pictures, all slice layouts of this and of earlier pictures", "why_tests_cant": "Needs particular pairs of consecutive slice layouts in the same handle, which changes with threading.", "anchors": ["source/common/sao.cc: sao_get_neighbor_avail", "source/common/decoder.cc: init_frame"]}
{"id": "C67", "title": "Each slice decides on sample adaptive offset for its own coding trees", "statement": "Sample adaptive offset is applied to a coding tree exactly if the header of the slice the tree belongs to enables it and the tree's parameters ask for it.", "quantifier": "all slice layouts and slice headers", "why_tests_cant": "Needs slices that start in the middle of a row and differ in their flags.", "anchors": ["source/common/sao.cc: sao_lcurow, sao_read_lcu_param", "source/common/header.cc: parse_slice_header"]}
{"id": "C68", "title": "The sample player announces the number of pictures it will send", "statement": "The number of frames the reference application prints before decoding is the number of picture packets it then sends to the decoder.", "quantifier": "every input file", "why_tests_cant": "All byte strings; start codes straddling any position.", "anchors": ["source/test/test.c: test_decoder", "source/test/inputstream.h: count_frames"]}
{"id": "C69", "title": "The y4m header states the frame rate of the sequence", "statement": "When the reference application writes a y4m file, the frame rate in its header is the frame rate of the sequence header.", "quantifier": "every accepted sequence header", "why_tests_cant": "All header field values, including reserved codes.", "anchors": ["source/test/utils.h: write_y4m_header", "source/test/test.c: output_decoded_frame"]}
{"id": "C70", "title": "Comparison with a reference file is exact", "statement": "The squared difference reported for a plane is the sum of squared differences of the visible samples, is zero exactly if they agree, and the position reported for a mismatch is the first one in raster order.", "quantifier": "all planes of all sizes and strides", "why_tests_cant": "All sample values and sizes; overflow of the sum.", "anchors": ["source/test/psnr.h: cal_ssd, find_first_mismatch_point"]}
{"id": "C71", "title": "The MD5 shown for the output is the MD5 of the output file", "statement": "The digest the reference application prints is the RFC 1321 digest of the bytes of the output file, in upper-case hexadecimal.", "quantifier": "every output file of fewer than 2^37 bytes", "why_tests_cant": "All file contents and lengths; padding and length field.", "anchors": ["source/test/md5.h: FileMD5, md5"]}
{"id": "C72", "title": "The MD5 check succeeds exactly if the digest is right", "statement": "If the user gives a reference digest, the reference application reports success exactly if it is the digest of the output file, whichever case its letters have.", "quantifier": "every output file and every digest", "why_tests_cant": "All digests.", "anchors": ["source/test/test.c: main", "source/test/md5.h: FileMD5"]}
{"id": "C73", "title": "The output file contains exactly the visible samples", "statement": "For each delivered picture the reference application appends the visible samples of its three planes in raster order, preceded by a frame mark in y4m files, and nothing else.", "quantifier": "all pictures of all sizes, strides and sample sizes", "why_tests_cant": "All plane geometries.", "anchors": ["source/test/utils.h: write_frame, write_frame_plane"]}
{"id": "C74", "title": "The reference application accepts every way of giving an output file", "statement": "With or without an output file, the reference application starts; the output is a y4m file exactly if the name says so or output goes to the standard output.", "quantifier": "every output file name and its absence", "why_tests_cant": "All names.", "anchors": ["source/test/parse_args.h: parse_args", "source/test/utils.h: write_y4m_header"]}
{"id": "C75", "title": "Delivered samples are the decoded samples at the output bit depth", "statement": "Each visible sample of a delivered picture is the decoded sample, scaled with rounding and clipping to the bit depth announced with the picture.", "quantifier": "all accepted sequence headers, both builds, all picture sizes and sample values", "why_tests_cant": "All combinations of precisions and all sample values.", "anchors": ["source/common/decoder.cc: davs2_write_a_frame", "source/common/header.cc: task_decoder_update"]}
{"id": "C76", "title": "Announced planes lie inside the memory of the delivered picture", "statement": "Reading a delivered picture row by row at the announced strides and sample sizes stays inside memory that belongs to it, and the planes do not overlap.", "quantifier": "all picture sizes, bit depths and builds", "why_tests_cant": "All sizes and precisions.", "anchors": ["source/common/decoder.cc: davs2_write_a_frame", "source/common/header.cc: alloc_picture"]}
{"id": "C77", "title": "Delivering a picture never alters a frame of the decoder", "statement": "Writing the samples of a delivered picture changes only memory of that picture, never a decoded frame used for reference or already returned to its pool.", "quantifier": "all sequences of deliveries and returns of pictures", "why_tests_cant": "All histories, including changes of the sequence header.", "anchors": ["source/common/decoder.cc: davs2_write_a_frame, get_one_free_picture", "source/common/davs2.cc: davs2_decoder_frame_unref"]}
{"id": "C78", "title": "Exactly the right edges are deblocked", "statement": "With deblocking on, a sample line is smoothed across the border between two samples exactly when this border lies on the 8-sample grid, is not the border of the picture, does not separate slices that must not be filtered across, separates two coding units, prediction units or (if there are coefficients) transform units, and, in P and F pictures, the two sides differ in motion, reference or have coefficients. Chroma is smoothed only at borders of coding and prediction units. The result does not depend on the fact that the marks are set tree by tree while filtering is under way.", "quantifier": "all quadtrees, all types and splits of coding units, all slices, all motion fields, all picture sizes, all sets and orders of processed coding trees", "why_tests_cant": "The number of partitions of a picture is astronomically large; a missing or superfluous edge changes a few samples by small amounts, and drifts through later pictures without any visible failure.", "anchors": ["source/common/deblock.cc: lf_set_edge_filter_param, lf_lcu_set_edge_filter, lf_skip_filter, lf_scu_deblock, davs2_lcu_deblock"]}
{"id": "C79", "title": "Syntax elements are read as they were written", "statement": "If the arithmetic decoder delivers, symbol by symbol and without an error, the code of a value of a syntax element of a coding unit (split flag, type with skip and weighted skip modes, prediction directions and reference indices, motion vector difference, intra modes, coded block pattern, quantiser difference, coefficient level), reading the element gives exactly this value, uses exactly these symbols with the contexts they were coded with, and leaves the decoder where they end. No other sequence of symbols is accepted as a value of the element, so no code is the beginning of another.", "quantifier": "all values, all unit sizes, picture types and numbers of references, all decoder states reachable without an error, whatever follows the element", "why_tests_cant": "The values and context histories are unbounded; a wrong context or a table entry that is swapped decodes many streams correctly for a long time and then loses synchronisation.", "anchors": ["source/common/aec.cc: aec_read_split_flag, aec_read_dmh_mode, aec_read_mvds, aec_read_intra_cu_type, aec_read_cu_type, aec_read_cu_type_sframe, aec_read_inter_pred_dir, aec_read_intra_pmode, aec_read_intra_pmode_c, cu_read_cbp, aec_read_cu_delta_qp, gf_aec_read_run_level"]}
{"id": "C80", "title": "Transform coefficients are delivered as they were coded", "statement": "For every transform block of every coding unit the decoder can announce, luma or chroma, square or strip, in either scan direction: when the stream carries the code of a block of levels (16-bit, not all zero), decoding delivers exactly the scaled levels, each at its own position, nothing else, and stops exactly where the code of the block ends. No sequence of symbols is the code of two different blocks.", "quantifier": "all unit types, sizes and splits, all intra modes, all blocks of a unit, all level arrays of 16-bit levels with at least one non-zero, all scaling functions, all states of the arithmetic decoder, all data following", "why_tests_cant": "An 8x8 block alone has 65536^64 level arrays; the context of each flag depends on levels decoded before, the scan differs with mode, size and split, and the loops of the arithmetic decoder read several symbols at once. Tests exercise a vanishing part of these combinations and cannot show that no level is lost, moved or confused with another.", "anchors": ["source/common/aec.cc:aec_read_run_level", "source/common/aec.cc:aec_read_last_cg_pos", "source/common/aec.cc:aec_read_last_coeff_pos_in_cg", "source/common/aec.cc:aec_read_run_luma1", "source/common/aec.cc:cu_get_block_coeffs", "source/common/cu.cc:cu_read_all_coeffs"]}
{"id": "C81", "title": "Adaptive loop filter: same pictures on processors with vector instructions", "statement": "On processors with SSE4 the adaptive loop filter gives the same samples as on other processors: inside every filtered region the samples defined by the transmitted weights, and no change outside it. Holds for regions at the left picture border or of a width that is a multiple of 16 when the weights fit the 8-bit arithmetic of the vector code. Violated otherwise: a centre weight above 127 is truncated to 8 bits (a flat area of value 100 becomes 73), regions of other widths overwrite samples to their right, and a table is read before its start.", "quantifier": "all weights, all regions and positions, all source pictures, all contents of the destination", "why_tests_cant": "The vector code has other overflow and rounding points than the C code and handles widths with masks; the differences appear only for particular weights, widths and positions, so that comparing the two on sample streams shows nothing for the others.", "anchors": ["source/common/vec/intrinsic_alf.cc:alf_filter_block_sse128", "source/common/alf.cc:davs2_alf_init", "source/common/vec/intrinsic.cc:intrinsic_mask"]}
{"id": "C82", "title": "Deblocking: same pictures on processors with vector instructions", "statement": "On processors with SSE4 deblocking gives exactly the same luma and chroma planes as on other processors: for every picture, whatever edges are filtered and whatever the thresholds, and no sample is changed outside those that the filter may change.", "quantifier": "all planes of 8-bit samples, all picture and coding tree sizes, all sets of marked edges, all pairs of flags of edge halves, all thresholds from 0 to 255 (the tables hold at most 64)", "why_tests_cant": "One edge alone depends on 48 samples, two thresholds and two flags; the vector version transposes, computes all strengths at once in 16-bit lanes and selects by masks, and stores more samples than it changes. Equality for all contents cannot be sampled.", "anchors": ["source/common/vec/intrinsic_deblock.cc:deblock_edge_ver_sse128", "source/common/vec/intrinsic_deblock.cc:deblock_edge_hor_sse128", "source/common/vec/intrinsic_deblock.cc:deblock_edge_ver_c_sse128", "source/common/vec/intrinsic_deblock.cc:deblock_edge_hor_c_sse128", "source/common/deblock.cc:davs2_deblock_init"]}
{"id": "C83", "title": "Sample adaptive offset: same pictures on processors with vector instructions", "statement": "On processors with SSE4 or AVX2 sample adaptive offset gives exactly the same samples as on other processors, for the four directions of edges and for bands: the offset of its class or band in every sample of the region that may be filtered, limited to the range of samples, and no change outside the region, whatever its width.", "quantifier": "all planes of 8-bit samples, all regions (width and height from 2 for the diagonal directions), all combinations of available neighbours, all offsets and bands that can be transmitted, all contents of the destination", "why_tests_cant": "The vector code compares unsigned samples through minima and signed saturating bytes, selects offsets with masks or a byte shuffle, packs across the two halves of a register and ends rows with masked stores; a lane can be wrong for one combination of values, widths and positions only.", "anchors": ["source/common/vec/intrinsic_sao.cc:SAO_on_block_eo_0_sse128", "source/common/vec/intrinsic_sao.cc:SAO_on_block_eo_90_sse128", "source/common/vec/intrinsic_sao.cc:SAO_on_block_eo_135_sse128", "source/common/vec/intrinsic_sao.cc:SAO_on_block_eo_45_sse128", "source/common/vec/intrinsic_sao.cc:SAO_on_block_bo_sse128", "source/common/vec/intrinsic_sao_avx2.cc:SAO_on_block_eo_0_avx2", "source/common/vec/intrinsic_sao_avx2.cc:SAO_on_block_bo_avx2", "source/common/sao.cc:davs2_sao_init"]}
{"id": "C84", "title": "Inter prediction: same pictures on processors with vector instructions", "statement": "On processors with SSE4 or AVX2, prediction from a reference picture at a position between samples, and the average of two predictions, give exactly the samples that the portable functions give, for luma and chroma, for every fraction and block size, and nothing outside the block is written.", "quantifier": "all reference pictures of 8-bit samples, all strides and positions with a fraction, all blocks whose sides are multiples of four (luma) or two (chroma), both sets of instructions, all contents of the destination and of the buffer for intermediate values", "why_tests_cant": "There are some twenty kernels, chosen by width, that add products in wrapping 16-bit lanes, share symmetric taps, process pairs of rows and end rows with masked stores; one of them selects its formula by a table entry that belongs to the next filter, and reads behind the table for the last one, so that the result depends on what the linker has put there.", "anchors": ["source/common/vec/intrinsic_inter_pred.cc:intpl_luma_block_hor_sse128", "source/common/vec/intrinsic_inter_pred.cc:intpl_luma_block_ext_sse128", "source/common/vec/intrinsic_inter_pred.cc:intpl_chroma_block_ext_sse128", "source/common/vec/intrinsic_inter_pred_avx2.cc:intpl_luma_block_ext_avx2", "source/common/vec/intrinsic_inter_pred_avx2.cc:intpl_chroma_block_ext_avx2", "source/common/vec/intrinsic_pixel.cc:avs_pixel_average_sse128", "source/common/mc.cc:mc_luma", "source/common/mc.cc:mc_chroma", "source/common/mc.cc:INTPL_FILTERS_C"]}
{"id": "C85", "title": "Deriving motion never leaves the reference list or the motion tables", "statement": "For every P, F and B picture with reference pictures, every division into coding units and slices and every combination of syntax elements in their ranges, deriving motion vectors and references ends without following a missing reference picture, without an index outside the list of references or a table, and without using motion data left over from another picture; afterwards every block has complete motion data, every prediction unit is predicted from the references the stream names, and the motion saved with the picture is usable by later pictures.", "quantifier": "all picture sizes and coding tree sizes, all split decisions, slice maps, syntax elements, reference motion, sequences of pictures, initial contents of the buffers", "why_tests_cant": "the number of neighbour configurations, skip modes and reference histories is unbounded, and a stale or missing entry is only visible when the predicted block differs or the decoder crashes", "anchors": ["source/common/cu.cc: cu_read_info, cu_read_mv, cu_get_neighbors, cu_store_references, davs2_get_inter_pred", "source/common/predict.cc: get_mvp_default, fill_mv_and_ref_for_skip", "source/common/decoder.cc: init_frame, save_mv_ref_info"]}
{"id": "C86", "title": "Slices of a picture are independent in their motion", "statement": "The motion vectors, references and inter predictions of a slice depend only on the syntax of that slice, the division into slices and the reference pictures: not on the content of the other slices, and not on what was decoded before.", "quantifier": "all pairs of pictures that agree in one slice, all initial contents of slice numbers and coding unit records", "why_tests_cant": "tests compare with a few streams; that nothing at all of another slice or an earlier picture is read is a statement about pairs of executions", "anchors": ["source/common/predict.h: cu_get_neighbor_spatial", "source/common/predict.cc: get_mvp_default", "source/common/cu.cc: cu_get_neighbors, decode_lcu_init"]}
{"id": "C87", "title": "Motion kept for later pictures is that of one block for each 16x16 area", "statement": "After a picture, the reference and vector that later pictures find for a 4x4 block are those of the block at offset (8,8) samples of its aligned 16x16 area, or of the middle block where the picture ends inside the area; the block lies in the picture and in the same area, so all blocks of an area have the same saved motion and saving a row needs no other row.", "quantifier": "all picture sizes, all positions, all motion fields", "why_tests_cant": "edges depend on the picture size modulo 16 in both directions and a read outside the picture is silent", "anchors": ["source/common/decoder.cc: save_mv_ref_info"]}
{"id": "C88", "title": "Intra prediction sees the unfiltered neighbours of its own slice, in every picture", "statement": "Unless an error is reported for the picture, every sample of every plane, as it is before in-loop filtering, is what block by block reconstruction without any filtering gives: each block is predicted from those of its five groups of neighbouring samples all of which lie in the picture, belong to the same slice and are already reconstructed. It does not matter that deblocking, sample adaptive offset and the adaptive loop filter have changed the neighbouring coding trees by then, nor what memory held before. No availability table is read outside its bounds; every sample gets a value; no error is reported for up to 255 slices.", "quantifier": "all picture sizes and coding tree sizes, luma and chroma, all divisions into slices, coding units and transform blocks, all prediction modes and residuals, any effect of the in-loop filters on the plane, any initial memory", "why_tests_cant": "a neighbour read after filtering or taken from the wrong group differs by little, only in some configurations of blocks at coding tree borders, and errors spread only as small drift", "anchors": ["source/common/intra.cc: get_intra_neighbors, is_block_available, davs2_get_intra_pred, davs2_get_intra_pred_chroma, tab_DL_Avail64.., tab_TR_Avail64..", "source/common/decoder.cc: decode_one_lcu_row, davs2_cache_lcu_border, davs2_cache_lcu_border_uv", "source/common/cu.cc: decode_lcu_init, cu_recon, decode_lcu_recon"]}
{"id": "C89", "title": "A slice is reconstructed the same whatever the other slices hold", "statement": "The samples of a slice before in-loop filtering do not change when the coding units, modes and residuals of other slices of the picture change, when memory held something else before, or when the in-loop filters do something else to other coding trees.", "quantifier": "all pairs of coded pictures with the same slices which agree in one slice, all picture sizes, block structures, filter effects and initial memories", "why_tests_cant": "a test compares a few streams; the property is about all pairs of streams and any leak through a saved row or a table", "anchors": ["source/common/intra.cc: get_intra_neighbors, is_block_available", "source/common/cu.cc: decode_lcu_init, cu_recon", "source/common/decoder.cc: decode_one_lcu_row"]}
{"id": "C90", "title": "A picture may have any number of slices", "statement": "A picture divided into slices is decoded without an error being reported, however many slices it has.", "quantifier": "all numbers of slices, all contents", "why_tests_cant": "streams with hundreds of slices are not in any test suite", "anchors": ["source/common/cu.cc: decode_lcu_init (i_slice_nr), decode_lcu_recon", "source/common/decoder.cc: check_slice_header"]}
{"id": "C91", "title": "Spatial skip modes choose their candidates in one fixed order", "statement": "A coding unit skipped with a spatial mode takes motion from its six neighbours (F, G, C, A, B, D in this order): in B pictures, bidirectional, backward, symmetric and forward mode take the first neighbour of their kind, with the stated fallbacks to bidirectional neighbours, to mirrored vectors or to a pair of one forward and one backward neighbour; in F pictures, the dual and single modes take the first or last dual or single neighbour, or a pair of single ones. Without a candidate the vectors are zero.", "quantifier": "all combinations of neighbours (present or not, direction, references, vectors), all four modes, B and F pictures", "why_tests_cant": "Six neighbours with five kinds each, four modes, two picture types and unbounded vector values; the code keeps arrays and counters that are updated over two passes, and one counter too many or a wrong order shows only for certain combinations.", "anchors": ["source/common/predict.cc: get_mv_bskip_spatial, get_mv_fskip_spatial, fill_mv_and_ref_for_skip"]}
{"id": "C92", "title": "Motion of a finished picture is consistent; skipped units follow their neighbours", "statement": "Forget the motion of one coding unit of a finished P, F or B picture and derive it again while everything else is known, also the motion decoded later: the result is the same. So the motion of a unit is a function of the syntax and of the motion around it, with no trace of the order of decoding except which neighbours count as decoded. In particular all blocks of a unit skipped with a spatial mode have the direction, references and vectors that the rules of the mode take from the neighbours found in the finished picture; neighbours outside the picture or the slice do not count, the one above right counts exactly if it has been decoded before the unit.", "quantifier": "all picture and coding tree sizes, divisions into units and slices, syntax elements, reference motion, initial contents of buffers, all coding units", "why_tests_cant": "The number of divisions and neighbourhoods is unbounded; a read of data that is later overwritten, or of a neighbour not decoded yet, gives plausible vectors that only differ for some orders of units.", "anchors": ["source/common/cu.cc: cu_read_info, cu_read_mv, cu_get_neighbors", "source/common/predict.cc: fill_mv_and_ref_for_skip, get_mv_bskip_spatial, get_mv_fskip_spatial"]}
{"id": "C93", "title": "Temporal skip continues the motion of the reference picture", "statement": "A unit skipped without a spatial mode has, for each quarter, the motion of the block of the reference picture at the corner of the quarter, continued in proportion to the distances of the pictures: in P and F pictures to reference 0, and to a second reference when a weighted mode names one; in B pictures forwards to one reference and mirrored to the other. A block without motion gives the zero vector (P, F) or the vectors predicted from the neighbours (B). Within the range of vectors the continued vector times the old distance differs from the vector times the new distance by at most half a unit per distance and the error of a 14-bit reciprocal.", "quantifier": "all pictures, divisions, syntax elements, motion and distances of the references, all coding units and blocks; the vertical component in frame pictures (field pictures correct it for the parity), vectors modulo 2^16", "why_tests_cant": "Depends on vectors and distances of other pictures, each with thousands of values, and on the position of the block in the unit; a swapped distance or a wrong corner is visible only for moving content.", "anchors": ["source/common/predict.cc: get_mv_pf_skip_temporal, fill_mv_pf_skip_temporal, fill_mv_bskip", "source/common/predict.h: scale_mv_skip, scale_mv_biskip"]}
{"id": "C94", "title": "Vectors in the stream are added to the prediction from the neighbours", "statement": "In a finished frame picture every block of a unit that is not skipped has the direction and references that the stream gives for it, and vectors that are the difference in the stream plus a prediction, limited to 16 bits; with progressive vector resolution, vectors more than two quarter samples from the prediction have half sample resolution. The prediction is a function of the blocks to the left, above, above right (above left if that is not decoded) of the unit in the finished picture: one candidate alone is taken as it is, the shape of the unit chooses one of them when its reference is the same, otherwise each component is the mean of the two that agree in sign if the third has the opposite sign, and of the two nearest to each other if not. Candidates are scaled by the distances of the references; neighbours of another slice, intra blocks and blocks without a vector of the direction do not count. The second vector of a dual unit is the first continued to the other reference, that of a symmetric unit is mirrored.", "quantifier": "all P, F and B frame pictures, divisions into units and slices, syntax elements, distances, initial contents of buffers, all units and blocks", "why_tests_cant": "A unit has up to three neighbours, each with any vector, reference and direction, in any shape of units and slices; mistakes in the median, the scaling or the availability of a neighbour give plausible vectors except for some combinations.", "anchors": ["source/common/cu.cc: cu_read_mv", "source/common/predict.cc: get_mvp_default, derive_mv_pred_type, derive_median_mv, check_scaling_neighbor_mv, check_scaling_neighbor_mv_b, recheck_neighbor_ref_avail", "source/common/predict.h: pmvr_mv_derivation, scale_mv_default, scale_mv_skip", "source/common/aec.cc: cu_read_references"]}
{"id": "C95", "title": "Processor extensions do not change the residual", "statement": "Whatever vector extensions the processor has, the inverse transforms written with SSE and AVX2 instructions turn the coefficients of a transform block into exactly the residual that the transform is defined to give (C38), which is what the plain functions give: for all block shapes from 4x4 to 64x64, square or not, with and without the wavelet stage, with and without the secondary transform. The shortened functions for blocks whose coefficients lie in the upper left half or quarter are chosen only when that is so. Nothing beyond the block is written, and the result does not depend on what the registers or the memory behind the block held before.", "quantifier": "all combinations of SSE2, SSSE3 and AVX2, all block shapes and patterns, all 16-bit coefficients, all prediction modes and neighbours, all initial register contents", "why_tests_cant": "A block of 64x64 has 1024 coefficients of 16 bits; a wrong constant, a transposed register or an intermediate that overflows in one of ten thousand vector statements shows only for coefficients that reach it with the right magnitude, and only on a processor with that extension.", "anchors": ["source/common/transform.cc: davs2_dct_init, inv_transform", "source/common/vec/intrinsic_idct.cc: idct_4x4_sse128 to idct_16x64_quad_sse128, inv_wavelet_64x64_sse128, inv_wavelet_64x16_sse128, inv_wavelet_16x64_sse128, inv_transform_2nd_sse128, inv_transform_4x4_2nd_sse128", "source/common/vec/intrinsic_idct_avx2.cc: idct_8x8_avx2, idct_16x16_avx2, idct_32x32_avx2, idct_64x64_avx2, idct_64x16_avx2, idct_16x64_avx2", "source/common/aec.cc: aec_read_run_level"]}
{"id": "C96", "title": "The coding data of a picture are read as they were written", "statement": "Decoding the slices of a picture recovers exactly what an encoder wrote by the syntax of the format: for each largest coding unit the parameters of sample adaptive offset and the flags of the adaptive loop filter, the coding tree (also at the right and lower border, where squares outside of the picture are not coded), and for each coding unit its position, size, type, prediction directions, references, mode of two hypotheses, vector differences, intra modes of luma and chroma, transform split, pattern, quantiser and all levels. Which elements are present and what their codes depend on follows from the neighbouring units of the same slice only. Reading ends with the end mark of the slice, and no two different slices have the same code.", "quantifier": "all picture sizes and sizes of largest coding units, all picture types and tools, all divisions into slices that start at the left border, all coding trees and units, all earlier contents of the stored units", "why_tests_cant": "Whether an element is present and which context codes it depends on units decoded long before; a wrong neighbour for one kind of split at one border shifts all that follows, and pictures have unboundedly many coding trees.", "anchors": ["source/common/decoder.cc: check_slice_header, decode_one_lcu_row", "source/common/cu.cc: decode_lcu_parse, cu_read_info, cu_read_header, cu_read_mv, cu_read_all_coeffs, cu_read_end, cu_init, cu_read_intrapred_mode_luma", "source/common/aec.cc: aec_read_ctp_y, cu_read_cbp, aec_read_sao_offsets, aec_read_sao_type, aec_read_sao_mergeflag, aec_read_alf_lcu_ctrl, aec_startcode_follows", "source/common/sao.cc: sao_read_lcu_param, sao_read_lcu", "source/common/block_info.cc: get_neighbor_cbp_y, get_neighbor_cu_in_slice"]}
{"id": "C97", "title": "What is read of a slice depends on that slice alone", "statement": "The coding units that are read from the bytes of a slice do not depend on what earlier pictures or other slices of the picture left in the stored units, intra modes and filter parameters.", "quantifier": "all picture types, all slices, all contents left over from earlier pictures and slices", "why_tests_cant": "The leftover state is different for every history of pictures and every assignment of pictures to threads; a test sees one history.", "anchors": ["source/common/cu.cc: cu_init, cu_read_header, cu_read_intrapred_mode_luma", "source/common/aec.cc: aec_read_cu_type_sframe, aec_read_inter_pred_dir", "source/common/decoder.cc: check_slice_header, init_frame"]}
{"id": "C98", "title": "A coding unit is accepted only with complete residual data", "statement": "If the data end or an error is found while the levels of a transform block are read, the coding unit is reported as broken; no unit is accepted with a block that was not read to its end.", "quantifier": "all payloads, all unit types, sizes and transform splits, all states of the decoder", "why_tests_cant": "The error must fall into one particular block of one particular kind of unit; the set of broken payloads cannot be enumerated.", "anchors": ["source/common/cu.cc: cu_read_all_coeffs, cu_read_info", "source/common/aec.cc: aec_read_run_level", "source/common/aec.h: AEC_RETURN_ON_ERROR", "source/common/transform.cc: inv_transform"]}
{"id": "C99", "title": "Samples of inter units are the prediction the stream describes plus the residual", "statement": "Each sample of an inter coding unit in a delivered picture (before in-loop filtering) is the interpolation of the reference picture selected by the coded direction at the position the vector points to, however far outside the picture, or the mean of two such samples rounded up for bidirectional, symmetrical, dual and displaced prediction, plus the inverse transform of the coefficients coded for its block, limited to the range of samples. Each sample of the unit is set once by the prediction unit it lies in, chroma uses the same pictures and vectors, no other sample changes and nothing outside the padded references is read.", "quantifier": "All unit sizes 8x8 to 64x64, all partitions and transform splits, positions, directions, reference numbers, vectors, displacement modes, coefficients and contents of references, 4:2:0 and 4:0:0, pictures up to 8184 samples in each direction", "why_tests_cant": "Vectors, references, partitions and coefficients combine to an unbounded set of cases; a slip in one combination (a stride, a partition offset, a wrong list) shows only in streams that use it", "anchors": ["source/common/cu.cc:davs2_get_inter_pred", "source/common/cu.cc:cu_recon", "source/common/transform.cc:davs2_get_recons", "source/common/mc.cc:mc_luma"]}
{"id": "C100", "title": "Units that cannot be reconstructed are reported", "statement": "If a coding unit of a picture cannot be reconstructed, because its data could not be parsed or because the picture it refers to does not exist, the picture is delivered with its decoding error flag set; it is never delivered as correct with left-over memory in place of the unit.", "quantifier": "All coding units, all pictures and all lists of references including the empty list", "why_tests_cant": "Whether every failure deep in reconstruction reaches the flag is a statement about all paths; streams with missing references are rarely in test sets", "anchors": ["source/common/cu.cc:davs2_get_inter_pred", "source/common/cu.cc:decode_lcu_recon", "source/davs2.h:davs2_picture_t"]}
{"id": "C101", "title": "Bins written by an arithmetic encoder are the bins decoded", "statement": "For every sequence of bins (adaptive with any contexts, equiprobable, end markers), of any length, the entropy decoder started on the payload that an arithmetic encoder writes for them delivers exactly these bins in order and reports no error, whatever bits follow the code word and whatever its registers held before; hence every well-formed picture has payloads from which it is read as it was written.", "quantifier": "all sequences of bins of any length, all continuations of the payload, all earlier decoder states; all well-formed pictures with any number of slices", "why_tests_cant": "the decoder keeps the interval in two number representations with registers that are filled at different times; errors show only after particular sequences of hundreds of bins", "anchors": ["source/common/aec.cc:aec_start_decoding", "source/common/aec.cc:biari_decode_symbol", "source/common/aec.cc:biari_decode_symbol_eq_prob", "source/common/aec.cc:biari_decode_final"]}
{"id": "C102", "title": "The vector code for directional intra prediction writes the defined prediction and nothing else", "statement": "Whichever instruction set (SSE4, AVX2) the processor offers, intra prediction of a block of any shape in any direction for which a vector routine is installed fills the block with the samples defined from the available neighbours, the same as the plain C code; it writes nothing outside the block, reads nothing outside the border and its own arrays, and does not depend on uninitialised memory.", "quantifier": "all nine block shapes, all directions with a vector routine, all pictures around the block and availabilities of the neighbours (hence all borders), all contents of the picture and of uninitialised arrays", "why_tests_cant": "each of the 42 routines is written for itself with shuffles, masks and shapes treated one by one; the border has up to 257 samples of 256 values; writes below the block and reads beyond an array go unnoticed in most pictures", "anchors": ["source/common/vec/intrinsic_intra-pred.cc:intra_pred_ver_sse128", "source/common/vec/intrinsic_intra-pred.cc:intra_pred_ang_x_5_sse128", "source/common/vec/intrinsic_intra-pred.cc:intra_pred_ang_xy_14_sse128", "source/common/vec/intrinsic_intra-pred_avx2.cc:intra_pred_ang_x_8_avx", "source/common/vec/intrinsic_intra-pred_avx2.cc:intra_pred_ang_xy_13_avx", "source/common/vec/intrinsic_intra-pred_avx2.cc:intra_pred_ang_xy_16_avx", "source/common/vec/intrinsic_intra-pred_avx2.cc:intra_pred_ang_y_32_avx", "source/common/intra.cc:davs2_intra_pred_init"]}
{"id": "C103", "title": "The vector code that fills the border of intra prediction and that of DC, plane and bilinear prediction give the defined samples", "statement": "Whichever instruction set (SSE4, AVX2) the processor offers, the border of an intra block is set from the available neighbours exactly as by the plain C code, and prediction in the modes DC, plane and bilinear on that border fills the block with the samples defined from the available neighbours and leaves every other sample of the picture as it was.", "quantifier": "all nine block shapes, all places of the block in its coding tree unit, all availabilities of the neighbours, all 8-bit samples around the block, all earlier contents of the border, of the local arrays and of the picture", "why_tests_cant": "the vector code computes in 16-bit and 32-bit lanes that wrap, in steps of 8 to 32 samples that run over the end of small blocks and are overwritten afterwards; a wrong order of writes or an overflow shows only for particular shapes, availabilities and samples", "anchors": ["source/common/vec/intrinsic_intra-filledge.cc:fill_edge_samples_0_sse128", "source/common/vec/intrinsic_intra-filledge.cc:fill_edge_samples_xy_sse128", "source/common/vec/intrinsic_intra-pred.cc:intra_pred_dc_sse128", "source/common/vec/intrinsic_intra-pred.cc:intra_pred_plane_sse128", "source/common/vec/intrinsic_intra-pred.cc:intra_pred_bilinear_sse128", "source/common/vec/intrinsic_intra-pred_avx2.cc:intra_pred_dc_avx", "source/common/vec/intrinsic_intra-pred_avx2.cc:intra_pred_plane_avx", "source/common/vec/intrinsic_intra-pred_avx2.cc:intra_pred_bilinear_avx"]}
{"id": "C104", "title": "Adding the residual gives the same samples on every processor", "statement": "When a block is reconstructed in place, the decoder running on a processor with SSE4.1 or AVX2 leaves exactly the same bytes in the picture as the portable build: each sample of the block becomes prediction plus residual saturated to 0..255, and no byte outside the block changes, for every block size, position and line distance. This holds for every residual the inverse transforms can produce.", "quantifier": "all pictures, block addresses, line distances not smaller than the width, block sizes of the table, 16-bit residuals up to 32512 in the block, contents of the vector registers before the call, and the three classes of processors", "why_tests_cant": "The routines are assembler with loops, in-place updates and 16-bit wrap-around sums; wrong results for some position, wide row or residual appear only for particular data, and a test machine runs only the routines of its own processor.", "anchors": ["source/common/x86/pixeladd8.asm:pixel_add_ps_4x4", "source/common/x86/pixeladd8.asm:PIXEL_ADD_PS_W16_H4_avx2", "source/common/pixel.cc:davs2_pixel_init", "source/common/transform.cc:davs2_get_recons"]}
{"id": "C105", "title": "Blocks of 4x4 and 8x8 whose inverse transform is done by assembler give the same pictures", "statement": "On every processor for which the library selects an assembler version of the inverse transform (4x4 blocks on every processor with SSE2; 8x8 blocks without AVX2, in an SSE2 and an SSSE3 version), whatever 16-bit coefficients the block has and whatever the registers held before, the residual it leaves is small enough for the addition, equals the defined inverse transform after limiting to 9 bits, and the samples after adding it to the prediction are exactly the defined ones and those of the plain C functions; nothing behind the block is written.  (The assembler itself does not limit the residual to 9 bits: the numbers in between differ, the pictures do not.)", "quantifier": "all processors, both block sizes, all 16-bit coefficients, all initial register contents, all predictions, addresses and strides, all versions of the addition", "why_tests_cant": "A block has 2^256 or 2^1024 coefficient values; the overflow and rounding cases of 32-bit lanes and of the missing limit show only for particular large coefficients, and a test machine runs only one of the versions.", "anchors": ["source/common/x86/dct8.asm: idct_4x4_sse2, idct_8x8_sse2, idct_8x8_ssse3", "source/common/transform.cc: davs2_dct_init, inv_transform", "source/common/x86/pixeladd8.asm"]}
{"id": "C106", "title": "The memory helpers in assembler copy, clear and fill exactly the bytes asked for", "statement": "On x86 processors the library copies picture rows, borders and coefficients with assembler helpers. For every length the general copy leaves at the destination exactly the bytes of the source and changes no other byte of memory; the clearing helper sets exactly the bytes asked for to zero; the copy for aligned data always ends and does the same for every length that is a multiple of 16, in particular for every whole picture row it is given when a picture is extended above and below. The fill helper gives the bytes of memset for every value.", "quantifier": "all memories, addresses, lengths (below 2^63, aligned copy below 2^31), non-overlapping ranges, initial register contents, picture sizes; all fill values", "why_tests_cant": "Lengths and values are unbounded, a byte written in front of or behind the destination shows only if somebody looks there, and saturation in the fill helper appears only for values of 128 and more.", "anchors": ["source/common/x86/mc-a2.asm: fast_memcpy, memcpy_aligned, fast_memzero, fast_memset", "source/common/memory.cc: davs2_memory_init", "source/common/frame.cc: pad_line_lcu, davs2_frame_copy_planes"]}
{"id": "C107", "title": "Prediction with a whole-sample vector copies exactly the block of the reference, on every processor", "statement": "When a motion vector has no fraction, the block predicted from it is, sample for sample, the block of the reference picture at the displaced position, for every prediction unit of every inter coding unit the bit stream can describe, luma and chroma, and no byte outside the predicted block changes. The plain C functions, the SSE2 and the AVX assembler functions leave the same memory, and for every such unit the table of functions has an entry (no entry is missing, none has another size).", "quantifier": "all processors, frame types, coding unit sizes and inter partitions, memories, destination and reference addresses, line distances (destination lines not overlapping, blocks apart), positions inside and outside the picture, initial register contents", "why_tests_cant": "There are 35 assembler programs with loops and unrolled rows; a wrong row, piece or loop count shows only for one size on one class of processors, and a byte written behind a block only if its neighbour is looked at before it is overwritten.", "anchors": ["source/common/x86/blockcopy8.asm: blockcopy_pp_*", "source/common/pixel.cc: davs2_pixel_init, g_partition_map_tab, BLOCKCOPY_PP_C", "source/common/mc.cc: mc_luma, mc_chroma, mc_block_copy_c", "source/common/cu.cc: cu_init_prediction_units"]}
{"id": "C108", "title": "The filters' scratch picture and the picture borders hold the picture's samples, byte by byte", "statement": "On x86-64 with 8 bits per sample the decoder copies each row of coding trees into a scratch picture before SAO and ALF and continues every decoded picture beyond its borders for motion compensation, both with assembler copies on raw memory. After the copy of a row the scratch plane holds exactly the samples of the picture from four lines above the row to its end, continued on both sides for ALF, and no other byte of memory differs; after the borders are expanded, every byte up to 80 (chroma 40) lines and columns outside the picture is the nearest sample of the picture.", "quantifier": "every picture size, tree size, row, padding that is a multiple of 8, content of memory and registers, plane addresses that do not overlap", "why_tests_cant": "A copy that is some bytes short, too long or at the wrong line is hidden by equal contents and shows only at particular widths; tests compare pictures, not the memory around them.", "anchors": ["source/common/frame.cc: davs2_frame_copy_lcurow, pad_line_pixel, pad_line_lcu", "source/common/x86/mc-a2.asm: fast_memcpy, memcpy_aligned", "source/common/sao.cc: sao_lcurow", "source/common/alf.cc: alf_lcurow"]}
{"id": "C109", "title": "Instruction sets are used exactly where processor and operating system support them", "statement": "Opening a decoder never executes an instruction that the machine refuses and never relies on a processor answer that does not exist. An instruction set (SSE2 to AVX2) is considered available exactly if the processor reports it and, for AVX and AVX2, the operating system saves the wide registers; SSE2 and SSE3 are in addition left unused on three old Intel models. The text naming the instruction sets, which is built while opening, fits the buffer it is written to.", "quantifier": "all answers of the processor and the operating system to the queries, both values of the switch that disables AVX", "why_tests_cant": "A test runs on the machine it runs on; the answers of other processors, of virtual machines that hide features and of operating systems without support for wide registers cannot be tried, and an overflow of the text buffer would need a particular combination of features.", "anchors": ["source/common/cpu.cc:davs2_cpu_detect", "source/common/cpu.cc:davs2_get_simd_capabilities", "source/common/davs2.cc:davs2_decoder_open"]}
{"id": "C110", "title": "Each decoder honours its own request to disable AVX", "statement": "A decoder opened with disable_avx = 1 executes no AVX or AVX2 function, whatever other decoders the process has opened before or opens at the same time, and a decoder that has been opened has all its functions set.", "quantifier": "all sequences of opened decoders with either value of the switch, all processors, all interleavings of two threads that open decoders", "why_tests_cant": "Tests open one decoder per process; the table of functions is shared by the process, so that the effect shows only with a second decoder, and the unset table only in a narrow interleaving.", "anchors": ["source/common/primitives.cc:init_all_primitives", "source/common/davs2.cc:davs2_decoder_open", "source/davs2.h:davs2_param_t"]}
{"id": "C111", "title": "Closing a decoder gives back all its memory, once", "statement": "After any sequence of calls (packets sent, frames received and given back, flush) and any progress of the decoding threads, closing the decoder frees every packet buffer and every output picture it has allocated and frees none twice, whether or not all pictures have been fetched.", "quantifier": "all sequences of calls and task steps, any number of packet buffers, any picture sizes including changes of size", "why_tests_cant": "A leak or a double release shows only for particular moments of closing relative to the decoding threads and to what was fetched; tests drain the decoder before they close it.", "anchors": ["source/common/davs2.cc:davs2_decoder_close", "source/common/davs2.cc:destroy_all_lists", "source/common/davs2.cc:davs2_pack_es_unit", "source/common/decoder.cc:get_one_free_picture", "source/common/threadpool.cc:davs2_threadpool_delete"]}
{"id": "C112", "title": "Data between the picture header and the first slice do not disturb the picture", "statement": "For every picture packet, decoding of the picture data starts at the first slice that begins after the picture header, whatever user data, extension data or filling bytes stand in between, and never looks behind the end of the packet; a packet without a slice is recognised as such.", "quantifier": "all payloads, all positions at which the header ends, all lengths and contents of the data in between", "why_tests_cant": "User data may hold any bytes; tests use streams of one encoder that writes none or one kind.", "anchors": ["source/common/decoder.cc:decode_user_data", "source/common/decoder.cc:decoder_decode_picture_data"]}
{"id": "C113", "title": "A new picture size does not invalidate pictures in progress", "statement": "When a sequence header with another picture size arrives in the stream, the pictures of the old size that are still being decoded, used as references, waiting for delivery or held stay intact until they have been delivered and given back.", "quantifier": "all histories of taking, using and releasing frames and of sequence headers, any number of frames and holders", "why_tests_cant": "The memory is touched after it was freed only if the header arrives while a thread or the output list still holds a frame, and then mostly without visible effect.", "anchors": ["source/common/header.cc:task_set_sequence_head", "source/common/header.cc:destroy_dpb", "source/common/header.cc:create_dpb", "source/common/frame.cc:davs2_frame_new"]}
{"id": "C114", "title": "Closing the decoder never hangs on its threads, and threads never sleep over queued work", "statement": "While decoding work is queued and no submission is in progress, no worker thread is left sleeping. When the decoder is closed, whatever its threads were doing, each of them ends after a bounded number of its own steps and none can be stuck, so the close call returns (given that work that has begun finishes).", "quantifier": "every number of threads, every interleaving of submissions, wake-ups (also without cause), worker steps and the closing", "why_tests_cant": "A lost wake-up shows only in rare schedules.", "anchors": ["source/common/threadpool.cc: davs2_threadpool_thread, davs2_sync_job_list_push, davs2_threadpool_delete"]}
{"id": "C115", "title": "Damaged pictures never stop the decoder", "statement": "However many pictures of a stream are damaged, the decoder goes on decoding the intact pictures that follow: once the caller has given back the pictures it has received, a frame can always be found for the next picture.", "quantifier": "every size of the frame pool, every sequence of pictures, every interleaving of the decoding threads, the output and the caller", "why_tests_cant": "The damage adds up over the stream and depends on pool size and schedule.", "anchors": ["source/common/header.cc: task_get_references, task_release_frames, release_one_frame", "source/common/decoder.cc: decoder_decode_picture_data"]}
{"id": "C116", "title": "Parsing and reconstruction in separate threads finish every picture", "statement": "In a build that parses and reconstructs in separate threads, every picture whose data can be read is finished: no coding tree is reconstructed before it is parsed, and the reconstructing thread never sleeps for ever once the picture has been parsed.", "quantifier": "all picture sizes, all interleavings of the two threads", "why_tests_cant": "A lost wake-up shows only in a window of a few instructions.", "anchors": ["source/common/decoder.cc: decode_one_lcu_row_parse, wait_lcu_row_parsed, decode_lcu_row_recon"]}
{"id": "C117", "title": "The decoder's locks never deadlock", "statement": "Calls of the API and decoding threads never block each other for ever on the decoder's mutexes: as long as one of them has something to do, one of them can go on, and no mutex is held by two threads.", "quantifier": "any number of threads and frames, any way each thread takes through the sections that hold mutexes, all interleavings", "why_tests_cant": "A deadlock shows only if several threads meet in a particular order.", "anchors": ["source/common/header.cc: task_get_references, task_set_sequence_head, destroy_dpb, release_one_frame", "source/common/davs2.cc: decoder_decode_es_unit, output_list_get_one_output_picture, task_unload_packet", "source/common/decoder.cc: task_send_picture_to_output_list, decoder_signal", "source/common/common.cc: xl_append, xl_remove_head", "source/common/threadpool.cc"]}
