# Formal model of davs2: design

The model is written in Lean 4 (4.33.0) with selected Mathlib modules, in `lean/Verif`.
`/repo` is read as text only; nothing is compiled or executed from it.

## Layout

* `Verif/Model/*.lean` transcribes the C++ code, function by function. Every definition cites
  file and lines in `/repo` and says where it simplifies.
* `Verif/Spec/*.lean` holds small specifications that do not mention the model.
* `Verif/Lemmas/*.lean` holds auxiliary lemmas.
* `Verif/Props/*.lean` holds the property theorems, one file per topic, each theorem accompanied by an
  `example` that satisfies its hypotheses.

## Modelling rules

* C `int` is `Int`, with a separate "no overflow" statement where the property is about overflow, and
  explicit truncation functions where the code casts (`int16_t`, `int8_t`, `uint8_t`).
* An access outside an array or buffer is a distinct outcome (`none` or an error constructor), never a
  default value that would hide it.
* Loops are structural recursion over the data or over a fuel that is proved sufficient.
* Threads: the mutex-protected sections are atomic steps; a property about all schedules is an
  invariant over every sequence of steps.
* If a property does not hold of the code, the model reproduces the code, a theorem proves the negation
  on a concrete input (`…_violated`), and the part that does hold is proved under an explicit
  hypothesis with suffix `_partial`.

## Properties

| id | what is modelled | how it is proved |
|----|------------------|------------------|
| C01 | `bs_dispose_pseudo_code` as a byte-step state machine; spec: bit-level escaper | state machine refines a bit-level remover; remover ∘ escaper = id by induction |
| C02 | same | invariant "phase 0" along the run |
| C03–C05 | `vlc.h` readers over a byte list | bit-list semantics, induction on code length |
| C06 | same, reads return `none` outside the buffer | witness of an out-of-bounds read; partial: enough bits left |
| C07–C08 | `find_start_code`, `find_pic_start_code` | induction on the buffer; witness for a missed code |
| C09–C10 | `davs2_pack_es_unit` as a state machine over packets | induction over packet histories; witness for overflow |
| C11–C12 | `send_packet`/`flush` as state machine | case analysis; witness |
| C13–C15, C53 | output list, get-output logic, flush | invariants over operation sequences; witness for lost pictures |
| C16–C17 | DPB, `task_get_references`, releases | invariant over operation sequences |
| C18–C22, C54–C56 | header parsers over a bit reader on memory, header scan | inversion of the parser; writer/parser round trips; witnesses (C56: the flag for weighted quantisation is never read) |
| C23–C24 | address arithmetic of picture buffers; padding loops over a plane | linear arithmetic; pointwise characterisation |
| C25 | `davs2_threadpool_*` with workers, submitters and waiters as atomic steps | invariant over all interleavings |
| C26, C57 | `xlist_t` append/remove/wait under a mutex with condition-variable wake-ups, also spurious ones | refinement to a queue over all interleavings; witness of a removal that returns nothing after a wake-up without cause |
| C27 | thread counting and clamping in `davs2_decoder_open` | arithmetic; witness |
| C28, C30 | AEC context update and tables; payload bit reader with its 64-bit buffer | invariant on contexts; reader refines the bit list of the payload |
| C29, C58 | `biari_decode_symbol`, `_eq_prob`, `_final` with all registers; spec: exact arithmetic decoding over ℚ | simulation relation between registers (logarithmic and real domain) and the exact interval, induction on the symbol sequence, with an exact count of the bits read (an error needs a payload shorter than the interval or an offset too small to be seen in it); two witnesses where the code deviates |
| C31 | `biari_decode_symbol_continu0`, `_ext` | step-by-step equality with single-symbol decoding |
| C32 | all syntax element readers of aec.cc over an abstract arithmetic decoder (`Machine`), faults for contexts and tables out of range and for unrepresentable integers (Model/AecSyntax) | Hoare-style rules (`Within`) for every state; violations by running the concrete decoder on short payloads |
| C33 | `aec_read_run_level`, `cu_get_block_coeffs`, all scans and block shapes | invariant over coefficient groups; scan tables shown injective by kernel evaluation over all shapes in use |
| C34 | `scale_mv_default/skip/biskip` and `_y` variants, `getDeltas`, `init_fdec` distances, `pmvr_mv_derivation` with explicit casts and 32-bit overflow as `none` | equality with exact rounding limited to 16 bits while the product fits; B pictures unconditionally; witnesses for overflow and wrap-around |
| C35 | `derive_median_mv`, `derive_mv_pred_type`, `get_mvp_default` | case analysis; witness for dependence on order with ties |
| C36 | `cu_get_mc_pos`, `cu_get_mc_pos_mv`, `mc_luma`, `mc_chroma`, interpolation loops reading a linear plane (outside = `none`) | equality with ideal interpolation of the infinitely extended picture for blocks whose reads stay within the padding; witnesses for blocks higher or wider than the padding |
| C37 | same interpolation filters | integer arithmetic |
| C38 | `partialButterflyInverse4/8/16/32`, `idct_*`, in-place wavelet loops, secondary transforms; 32-bit overflow is `none` | symmetry of the tables (whole tables evaluated by the kernel) lifted to all inputs; loop invariants for the in-place stages |
| C39 | `add_ps` in place as nested loops over memory; `davs2_clip_pixel`, `davs2_sign2/3`, `davs2_median` over 32-bit words | fold over pairwise distinct addresses; case analysis on sign bits |
| C40 | `lf_edge_core` on the samples across an edge, thresholds | linear bounds; weights of every strength as a weighted mean; mirror symmetry |
| C41 | visiting order of `davs2_lcu_deblock` over all coding trees, `lf_scu_deblock` on luma and chroma planes | exact count of visits; commutation of line filters without common samples, so that the order is equal to two simultaneous passes; witness for pictures one coding tree wide |
| C49, C59 | quantiser tables, `cu_get_quant_params`, `cu_get_chroma_qp`, scaling of levels, quantiser of a row of coding units | nearest-integer specification, whole tables by kernel evaluation; witnesses for quantisers outside the tables |
| C43 | SAO/ALF regions of every tree with slice numbers of this and the previous picture (Model/LoopRows) | regions are intervals between cuts of each axis, every position lies between exactly one pair of cuts; violations: stale slice numbers (SAO), slice borders without cross-slice filtering (ALF) |
| C45 | `decode_lcu_parse`, `decode_lcu_recon`, zigzag numbering and coefficient storage of a coding tree | induction on the level; exact cover; disjoint storage ranges |
| C46 | availability tables for top-right and bottom-left neighbours | equality with decoding order (z-order), whole tables by kernel evaluation, order lifted by induction on the tree |
| C42 | `sao_block` with its carried signs (one per row, one per column buffer), offset tables, offset/type/band syntax of one tree | loop invariants stating the content of the sign buffers; per-sample spec in `Spec/Sao.lean` |
| C44 | alf_filter_block1/2, coefficient reconstruction, parameter parsing, class table (Model/Alf) | each output sample equals Spec/Alf for weights of bounded size, by composing rows and corner fixes; table invariants over the parser; violations: distance 16, weight 2^24 |
| C47 | `aec_read_intra_pmode`, `cu_read_intrapred_mode_luma` with its buffer as linear memory, `aec_read_intra_pmode_c` | arithmetic for the bijection; invariant over the sequence of blocks: the buffer holds the mode of the covering block in last rows and columns, which is all that neighbours read |
| C48, C63, C64 | the four `fill_reference_samples_*`, all general and all specialised predictors of `intra.cc` with their scratch lines (reads outside a scratch line are `none`), 16-bit stores of the bilinear mode | pointwise characterisation of the border; periodicity of the displacement tables lifts one period to all rows; bounds of the samples read; witnesses for DC and bilinear on blocks that are not square |
| C50 | `cu_init_prediction_units`, `cu_init_transform_units`, `cu_set_tu_split_type`, `aec_read_intra_cu_type`, `cu_store_references`, block positions in `cu_read_all_coeffs`; packed shifts on 32-bit words | tables by kernel evaluation, scaled to all sizes; fold over disjoint rectangles |
| C60–C62 | `check_slice_header` (mode buffer), `parse_slice_header`, filling of coding trees by `decode_one_lcu_row` | witnesses; invariant for slices beginning at the left border; writer/parser round trip |
| C65 | decode_one_lcu_row as far as it changes a plane: store, deblock, copy, SAO, copy, ALF per row (Model/LoopRows) | generic pipeline lemma over filters with known footprints (Lemmas/LoopPipe), instantiated with the three filters; stores are commuted before all deblocking; result compared to Spec/LoopFilter and Db.Spec.picture |
| C66 | as C65 with slice numbers of the previous picture | corollary of C65; violation by evaluating a 16x16 plane |
| C67 | slice_sao_on at the end of a row (`saoRowEnd`) | case split; violation by evaluating a 16x16 plane |
| C51, C68 | sample player loop of test.c over the buffer of read_input_file, `find_one_frame`, `count_frames` (Model/Player) | induction on the remaining data; witness for bytes before the first start code |
| C69, C74 | `output_decoded_frame`, y4m header, choice of the output kind in `parse_args` (Model/Tool) | table of rates by kernel evaluation; string suffix; witnesses for rate codes 9 to 13 and for no output name |
| C70 | `cal_ssd_*`, `find_first_mismatch_point_*` of psnr.h (Model/Tool) | loop invariants; witness for mismatches in two rows |
| C71, C72 | `FileMD5` with its padding buffers, unrolled `md5`, comparison in `main` (Model/Md5) | refinement to RFC 1321 (Spec/Md5): 64 unrolled steps against the round formula, block loop, padding; witness for a digest in lower case |
| C73 | `write_frame`, `write_frame_plane` (Model/Tool) | induction on rows |
| C75–C77 | `davs2_write_a_frame` with its four branches, `alloc_picture`, reuse of picture objects; both builds (Model/WriteFrame) | loops as pointwise updates; linear bounds of plane ends; induction over deliveries; witnesses with legal sequence headers |
| C78 | `lf_set_edge_filter_param`, `lf_lcu_set_edge_filter`, `lf_skip_filter`, parameters of `lf_scu_deblock`, interleaving of marking and filtering (Model/DeblockEdge) | sample-wise specification without recursion (Spec/Edges); induction over the quadtree with the invariant that flags of a unit depend on the distance from its corner only; finite tables of unit shapes by `decide +kernel` over all types, levels and splits; flags final when used; composed with C41 |
| C79 | the element readers of Model/AecSyntax over an abstract decoder of symbols; the decoder of Model/Aec as an instance | tables of codes written from the encoder's side (Spec/Binarise); rules for sequencing codes (`Codes`), each giving both directions: the code of a value is read as this value, and only codes are accepted; finite tables by `decide +kernel`, unary and Exp-Golomb codes by induction; the run loops of the arithmetic decoder meet the unary law by C31; decoding without an error stays in good states. Not covered: SAO and ALF parameters (see C50, C51), transform-split inference, S-picture specifics beyond the unit type |
| C80 | `Spec/CoeffCode` defines the code of a block of levels from the encoder's side (last group, group flags, last position, flags and levels downwards with the contexts as functions of the levels, signs). `Lemmas/CoeffPairs`, `Lemmas/CoeffBlock` prove by induction over positions and groups that `blockCoeffs` (aec.cc:1723-2188) reads it back; the invariant relates the run/level pairs to the levels from a position on. `C80_unique`: the code is uniquely decodable. The scans are checked against a generic zig-zag. Levels are limited to 16 bits: `C80_wraps` shows what happens beyond |
| C81 | Model/Vec: SSE registers as 16 bytes, each intrinsic used as a function on registers (trusted: that these functions are what the processor does, after Intel's description). Model/VecAlf: `alf_filter_block_sse128` line by line, with the masked store | lane lemmas; invariant of the column loop; ranges exclude saturation; equality with `Al.block1` (C44); witnesses for the three differences |
| C82 | Model/VecDeblock: the four SSE functions for edges with transposition, masks, early exit for strength 4 | each lane is one line of `Db.filterLine`; stores as pointwise updates; equality with `Db.edgeCore` per edge, then by induction over the edges of a picture |
| C83 | Model/VecSao: the five SSE4 and five AVX2 block functions with their row loops and masked stores; 256-bit instructions in Model/Vec | each lane is the offset of its class or band; a row is the definition from start to end and nothing else; with C42 both equal the C functions |
| C84 | Model/VecInter: the SSE4 and AVX2 interpolation kernels of luma and chroma (horizontal, vertical, both), their selection by width and fraction, `mc_luma`/`mc_chroma`, and `block_avg` in place; more instructions in Model/Vec | each lane is the filter sum (no wrap: taps sum to at most 127 in absolute value); loops fill exactly the block; equal to the C functions of Model/Mc. Chroma in both directions is partial: `coef_y[6]` of a row of four taps is read; for fraction 7/8 it is behind the table, and if it is 6 the result is wrong (`C84_chroma_violated`). Copy of a block not modelled |
| C85 | Model/Motion: neighbours, vector prediction, all skip modes, reading of vectors, storing of references, selection of the references, coding trees in order, saving of motion; what was not written in the picture is a separate value whose use is a fault. Model/MotionSyntax: reading of the coding unit header. Errors while reading are not modelled | invariant over coding units in order: all blocks of decoded units are complete (`BlkOk`), with the availability results of C46 for the neighbours; `C85_sequence_partial` closes the assumption about references by induction over pictures; `C85_reader` obtains the assumption about syntax from the readers of C32/C50. **Violated** for P pictures without references (`C85_no_reference_violated`) and skipped units of S pictures (`C85_scene_violated`) |
| C86 | same model, two runs | both runs in lockstep (`Rel`), relation: same slice numbers for decoded blocks, same motion in the slice (`Sim`); other slices write only their own blocks. Not for S pictures, for which it is false |
| C87 | `save` in Model/Motion | direct, arithmetic on the position |
| C88 | Model/IntraPicture: neighbour flags with slice numbers and tables, border of a block from the plane or from the saved row and column, prediction (C63), writing of the block, slice numbers of a coding tree, saving of row and column before filtering, the loop over coding trees; the in-loop filters are any function of the plane, what motion compensation gives is a parameter | Spec/IntraPicture reconstructs block by block with the set of samples done so far. One block: flags equal "all samples usable" (`flags`), border equal (`intra_step`). The tables are checked against the decoding order for every block of every coding unit of a coding tree (`allOk`, kernel evaluation of the whole finite table) and lifted by the order results of C45/C46. Then folds over blocks, units, trees, rows. Parsing errors not modelled |
| C89 | same model, two runs | at the level of the specification: blocks of other slices can be removed (`slice_only`) |
| C90 | same model | **violated** from 256 slices on (slice number 255 in a signed byte is −1); partial up to 255 slices |
| C91 | Model/SkipModes: `get_mv_bskip_spatial` and `get_mv_fskip_spatial` statement by statement (arrays, counters, two passes) | invariant of the loop over the neighbours (counters and entries in terms of the neighbours seen so far); Spec/SkipModes states the choice with first/last in scan order |
| C92 | Model/Motion | Lemmas/MotionAgain: a coding unit writes only its own blocks and reads only earlier ones, so its step can be repeated in the finished picture (`again`); then Spec/MotionRules reads the neighbours in the finished picture, "decoded before" from the order of the units |
| C93 | Model/Motion | the step of the unit repeated in the finished picture as in C92; success of the derivation excludes overflow of the products, so that the scaled vectors are the exact ones modulo 2^16 |
| C94 | Model/Motion, Spec/MotionRules | the step of the unit repeated in the finished picture as in C92; the partial tables during the step agree with the finished one wherever they are read; median, scaling and resolution are given by a separate specification |
| C95 | Model/SimdProg, SimdIdct16, SimdIdct32, SimdIdct32x8, SimdIdctAvx, SimdWavelet, SimdSecond, SimdTable: all intrinsics functions of the inverse transforms as lists of statements over registers of bytes, the table that selects them, `inv_transform` | a symbolic evaluator (Lemmas/SimdAbs, SimdWave) runs each program on 16-bit lanes that are linear forms of the inputs with bounds, or halves of sums of them; it is proved sound for every initial state (SimdSound, SimdOps, SimdExec), and its verdict that the result is the definition is evaluated by the kernel for each program (SimdCheck*, `decide +kernel` on closed terms). Secondary transforms by hand. C33 gives the area of the partial transforms. Assembler functions: C105 |
| C96 | Model/CuSyntax: parsing of coding units and trees with the stored units (`scu_data`), intra modes and last quantiser difference; Model/SliceSyntax: filter parameters of an LCU, loop over LCUs, end mark, start of a slice, slices of a picture | Spec/CuSyntax, Spec/SliceSyntax define the code of a picture from the encoder's side over maps of the picture. Lemmas/CuRest to CuWhole: one unit is read back under a relation between maps and stored units on the decoded area; Lemmas/CuTree: induction over the tree, the area grows by squares; Lemmas/SliceSyntax: induction over the LCUs of a slice and the slices of a picture |
| C97 | the same models, started from two different states | partial: `C97_independent_partial` from C96 for slices that start at the left border, other than S pictures. Fails: `C97_S_violated`, `C97_column_violated` |
| C98 | Model/CuSyntax on any decoder | partial: `C98_complete_partial` for all blocks but the luma block of an unsplit unit. Fails: `C98_violated`, a payload of three bytes gives an accepted unit with pattern -1 |
| C99 | Model/InterPred (`davs2_get_inter_pred`, inter part of `cu_recon`, `davs2_get_recons`) on the interpolation of Model/Mc, padded references and inverse transforms | partial: `C99_partial` refines the loop over prediction and transform units to one block per unit, sample for sample; `C99_content` gives the content C88/C89 take as given. Limit: pictures of 8184 samples; `C99_wrap_violated` for displaced vectors beyond 16 bits |
| C100 | Model/InterPred, leaf of `decode_lcu_recon` with the error flag | partial: `C100_unparsed_partial`. Fails: `C100_violated`, no reference: unit left as it was and not reported, since the value of `cu_recon` is dropped |
| C101 | Model/Aec with the spec of an arithmetic encoder (Spec/ArithEnc: every bin takes its part of an interval of exact numbers; code word 128 units above the lower end) | partial: nested intervals, refinement of C58 with an exact count of bits read, so that no error is reported while the payload has one bit more than the code word; composed with C96 for whole pictures. Fails: `C101_violated` |
| C102 | Model/VecProg (a small language: integer, pointer and register variables, local arrays, loads, masked stores, loops, calls; every access checked against its array), Model/VpSse*, VpAvx*: the 42 routines of directional prediction statement by statement, written out from the source text by a script; Model/VpTable: the table | partial. As for C95: an evaluator on linear forms (Lemmas/VpSym), whole rows of cells packed into numbers so that the kernel computes it quickly, proved sound for every border, picture and uninitialised memory (VpDigits, VpRel, VpOps, VpSim, VpStmt), its verdict for each routine and shape evaluated by the kernel (VpRun*), the meaning of the verdict in VpSpec and VpCheck; that nothing else is written in VpFrame. `C102_sse` complete. `C102_avx2_partial` and `C102_avx2_overrun_partial` for AVX2. Fails: `C102_violated_rows` (three routines write 8 rows in blocks of height 4), `C102_violated_array`, `C102_violated_mask`. Not modelled: DC, plane and bilinear prediction and filling of the border with vector instructions |
| C103 | Model/VecIntra: `intrinsic_intra-filledge` and the DC, plane and bilinear routines of `intrinsic_intra-pred` and `intrinsic_intra-pred_avx2`, register by register, loops as loops | proved. Lemmas/VecIntraBorder: the vector border is that of the C routine on an array with one more cell set, by cases on shapes with the writes joined (the order of writes matters: each copy runs over the next part). VecIntraFlat, VecIntraBi: lane values by the homomorphisms of wrapping addition and multiplication, loop invariants over rows and columns, ranges that show that no lane wraps where it matters. `C103_border`, `C103_sse`, `C103_avx2` against the definition of C48, C63 and C64; `C103_directional` puts C102 on the vector border. Alignment of aligned loads and stores is not stated; 8-bit samples only (the routines are installed only then) |
| C104 | Model/VecAdd: the nine bodies of `x86/pixeladd8.asm` (8-bit) as lists of instructions, pointers and strides, memory as bytes; the table of `pixel.cc` | proved. A checker that describes registers by groups of eight lanes (Lemmas/VecAdd), sound for every picture, residual, address and stride; its verdict for each body by the kernel (`decide +kernel`); induction on the rounds of the loop; C39 for the C function, C38 for the bound of the residual |
| C105 | Model/AsmIdct: `idct_4x4_sse2`, `idct_8x8_sse2`, `idct_8x8_ssse3` of `x86/dct8.asm` instruction by instruction | proved. The symbolic evaluator of C95 on the programs after two rewritings proved sound in Lemmas/AsmIdct (half loads as halves of whole loads; half stores as registers), verdicts by the kernel; the rows of the second SSSE3 pass by hand (Lemmas/AsmIdct8). The result is the definition without its last limit; the limit is absorbed by the saturation of the samples (C104, C39) |
| C106 | Model/MemAsm: `fast_memcpy`, `memcpy_aligned` (8-byte registers), `fast_memzero`, `fast_memset` of `x86/mc-a2.asm` on a memory of bytes; Spec/MemCopy says what a copy and a fill are | partial: copy and clear proved for all lengths, by induction over the rounds of each loop; aligned copy proved for multiples of 16 (every stride is one, C106_stride, from the strides of C23) and shown to write in front of the destination for every other length; `fast_memset` proved for -128..127 and refuted for 128..255 (`packsswb` saturates; no caller) |
| C107 | Model/BlockCopy: the functions `blockcopy_pp_WxH` of `x86/blockcopy8.asm` instruction by instruction (SSE2 and AVX, 8 bits), the C functions, the table of functions, the copying branches of `mc_luma` and `mc_chroma` | proved. A checker follows which piece of which row of the source each register holds and which pieces have been written; it is proved sound for every memory, address and line distance (`check_sound`), and its verdict for each program is evaluated by the kernel. C functions by induction. The sizes are those of C50's prediction units with the types of C32 |
| C108 | Model/RowCopy: `davs2_frame_copy_lcurow` and `pad_line_lcu` on bytes of memory with the assembler copies of C106 | each line by C106_memcpy and the padding loop of C24, induction over lines: the memory is that of `Lr.copyRow` (used by C65) at every address; the borders refine `padPicture` (C24) |
| C109 | Model/CpuDetect: `davs2_cpu_detect` (x86-64), `davs2_get_simd_capabilities`, `disable_avx`; the processor is any function from leaves to registers, `cpuid` of a missing leaf and `xgetbv` without OSXSAVE are an undefined outcome | each stage gives a defined result, the value of the flags it sets and a frame for the others; composed: no undefined outcome and each of seven flags equals the condition of Spec/CpuFeatures. The text: exclusions between flags (C109 `Excl`) bound it by 104 characters of the 119 there are; with arbitrary flags it would not fit (`C109_text_all`) |
| C110 | Model/CpuDetect: the guard of `init_all_primitives` with its 32 bit counter; as two steps for threads | **false of the code**: `C110_violated` (a second decoder with `disable_avx = 1` uses AVX2), `C110_race_violated` (a second thread continues with an empty table); proved: the first decoder decides, for any history of fewer than 2^32 openings |
| C111 | Model/Ownership: packets and output pictures as numbered blocks; calls, worker steps and ends of tasks as operations in any order | invariant over all histories: the number of owners of each block is the number of times it is allocated, at most one; so nothing is freed twice and closing leaves exactly the blocks of jobs not begun, pictures waiting for delivery and pictures not given back. **False of the code** as a claim on all closings: `C111_violated` (a decoded picture that was not fetched is never freed), `C111_job_violated` (a job no worker has begun keeps its packet) |
| C112 | Model/UserData: `decode_user_data` on any buffer and position | induction over the length: the scan gives the least offset at which a slice start code stands (Spec/StartCode), or there is none; a skipped start code cannot overlap a slice, since its code byte is above 143; corollary: bytes in front of the slices do not matter |
| C113 | Model/Resize: pools of frames, each in one block, reference counts, the size test of `task_set_sequence_head`, `destroy_dpb`, `create_dpb` | invariant over all histories: pools before the current one are freed, counts equal the number of holders. **False of the code**: `C113_violated`, for every reachable state with a frame in use a header of another size makes its next use undefined; `C113_calm_partial`: safe if such headers arrive when nothing is held |
| C114 | Model/PoolExit: sleeping, waking, submission, exit flag and broadcast of the pool as atomic steps (spurious wake-ups included) | invariant over all interleavings (no thread asleep with work queued or after the exit flag); a measure that each step of a worker lowers after the flag; assumes that a job's function returns |
| C115 | Model/Dpb (as C16) | fails: for every pool size n, n pictures without slices leave no frame that could ever be taken (C115_violated, by induction on n and C16_leak_is_permanent); without such pictures the work under way and the release of delivered pictures always lead to a frame (C115_partial, a measure lowered by each release) |
| C116 | Model/ParseSignal: the number of parsed LCUs, its store and wake-up without the mutex, and the waiting thread, for a build with CTRL_AEC_THREAD 1 (all other properties: 0, as shipped) | fails: for every picture size an order of steps in which the last wake-up is lost (C116_violated); no LCU is reconstructed too early (C116_order_partial); with the mutex around the store nothing would be lost (C116_locked_partial) |
| C117 | Model/Locks: all mutexes and the sections of the code that hold them, nested as in the code, any number of threads | invariant (every thread respects the order of taking mutexes; no mutex has two holders); in a stuck state every holder would hold `mutex_aec`, so there is one, and it asks for a mutex it does not hold. Conditions are C52, C57, C114 |
| C52 | Model/RowWait: the tasks of all pictures as programs of atomic steps (memset of the counters, waits, reconstruction, decoder_signal in its three parts), any interleaving, any number of threads | partial. `C52_safe_partial`: invariant over all interleavings, a passed wait means all rows up to it are reconstructed. `C52_progress_partial`, `C52_ends_partial`: no deadlock, every run is finite and ends with all pictures decoded (least unfinished picture; decreasing measure). `C52_luma_partial`, `C52_chroma_partial`: the row waited for covers everything interpolation reads; `C52_final_partial`: finished rows have their final values (uses the loop-filter pipeline). Fails: `C52_stale_violated` (counters of a reused frame are cleared only when its new task starts), `C52_hang_violated` (a row given up because of a bad slice header makes the task wait for itself) |

Not expressed: equality with the AVS2 standard as a whole (no formal text of the standard is available
here), SIMD code under `common/vec` other than that of C81 to C84, C95, C102 and C103, assembler other than that of C104 to C107, timing, memory exhaustion.

## Trusted base

* Lean's kernel, version 4.33.0, and the part of Mathlib that is imported, both checked by the kernel.
* The axioms `propext`, `Classical.choice` and `Quot.sound`. AXIOMS.txt has the axioms of every theorem of MANIFEST.json,
  as printed by `#print axioms`. There are no axioms of our own, no `sorry`, `native_decide` or `bv_decide`.
* The transcription of the C++ code into `Verif/Model`. It is made by reading; nothing of it is checked mechanically
  against `/repo`. Each definition has the lines it transcribes and says where it simplifies.
* The meaning of C that the transcription assumes: two's complement conversion to narrower types, arithmetic right shift,
  little-endian memory, `int` of 32 bits; for threads, sequentially consistent atomic steps per critical section.
* The meaning of the vector instructions (Model/Vec), taken from Intel's documentation.
* Build configuration: 8-bit samples (`HIGH_BIT_DEPTH` 0; Model/WriteFrame and Model/Tool cover both), `NDEBUG`, `CTRL_AEC_THREAD` 0, Linux with pthreads, x86.

### What is modelled and what is not, by file

| file in source/ | modelled | not modelled |
|---|---|---|
| common/aec.cc | arithmetic decoder, contexts, bit refill, all syntax elements of coding units and coefficients, SAO/ALF syntax elements, end mark of a slice | context initialisation per slice (`aec_init_contexts`, `aec_new_slice`) beyond "every context is reset"; tracing |
| common/alf.cc | parameters, classification, C block filters, regions, row order | buffer allocation, `alf_lcurow` beyond its region computation |
| common/bitstream.cc, vlc.h | everything but logging | |
| common/block_info.cc | availability functions used by the deblocking filter and intra prediction | `get_neighbor_cu_in_slice` as separate function (inlined where used) |
| common/common.cc | linked list | trace and log output, `xl_destroy`, `xl_remove_head_ex` |
| common/cpu.cc | number of processors, `davs2_cpu_detect` (C109), `davs2_get_simd_capabilities` (C109) | the cache line size of leaf 2 (any number), ARM |
| common/cu.cc | quadtree, units, header of a coding unit, references, vectors, intra modes, quantiser, coefficients, selection of references, motion compensation positions, waiting for rows, parsing of whole units and trees with read errors, reconstruction of intra and inter units and of trees | `copy_lcu_col1`, row reconstruction thread (`CTRL_AEC_THREAD`) |
| common/davs2.cc | packets, send, receive, flush, output list, opening, `decoder_decode_es_unit` (header scan, start codes, ownership in C111), what closing frees (C111) | locks and logging of closing, freeing of the picture buffer |
| common/deblock.cc | everything but function table initialisation | |
| common/decoder.cc | row order, start of a slice and loop over the LCUs, signals, picture output, motion saving, borders saved for intra prediction, writing of a frame | buffer release, `decoder_close` |
| common/frame.cc | layout, padding, `davs2_frame_copy_lcurow` (C108) | freeing, the other `davs2_frame_copy_*` |
| common/header.cc | sequence, picture and slice headers, DPB use counts, allocation sizes, change of the picture size (C113) | mutexes and conditions of frames; `davs2_reconfigure_decoder` is empty |
| common/intra.cc | all predictors of the C code, fast and general, border preparation, neighbour availability | function tables |
| common/mc.cc | C interpolation, selection, whole-position copies (C107) | the rest |
| common/memory.cc, osdep.h, win32thread.cc, configw.h | alignment of `davs2_malloc`; the helpers installed on x86 (C106) | the rest |
| common/pixel.cc, predict.cc, predict.h | everything used | function tables |
| common/quant.cc, quant.h | scaling, default matrices | `wq_*` user matrices beyond the header syntax |
| common/sao.cc | parameters, C filters, regions, rows | parameter copying between trees (`sao_copy_param`), allocation |
| common/threadpool.cc | run, wait, worker, exit flag and joining of the deletion | creation, freeing of the lists |
| common/transform.cc | all C inverse transforms, `inv_transform`, `davs2_get_recons` | dispatch by processor |
| common/vec | `intrinsic_alf`, `intrinsic_deblock`, `intrinsic_sao`, `intrinsic_sao_avx2`, `intrinsic_inter_pred`, `intrinsic_inter_pred_avx2`, the average of `intrinsic_pixel`, `intrinsic_idct`, `intrinsic_idct_avx2`, `intrinsic_intra-filledge`, `intrinsic_intra-pred` and `intrinsic_intra-pred_avx2` | the routines that are not installed (`x_7`, `x_9`, `x_11`) in `intrinsic_intra-pred*`, `intrinsic_pixel_avx`, `intrinsic_deblock_avx2` (not used by the code) |
| common/x86 (assembler) | `pixeladd8.asm`, 8-bit; `idct_4x4_sse2`, `idct_8x8_sse2`, `idct_8x8_ssse3` of `dct8.asm`, 8-bit; the memory helpers of `mc-a2.asm`; `blockcopy_pp` of `blockcopy8.asm`, 8-bit | the rest of `dct8.asm` (never installed), plane copies of `mc-a2.asm`, the functions of `blockcopy8.asm` for coefficients (never called), `quant8.asm`, `cpu-a.asm`, 10-bit branches |
| test/ | packet loop, reading of the stream, PSNR sums, MD5, file output | option parsing apart from limits, timing output |

Each row of the table of properties above says which of these parts its theorems speak about; nothing is proved about the
composition of all parts into one decoder, except where a property composes them explicitly (C52, C58, C65, C66, C85, C86, C88).
