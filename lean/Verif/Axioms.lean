import Verif.A2l.Balance
import Verif.A2l.Cost
import Verif.A2l.FileProps
import Verif.A2l.HashMapProps
import Verif.A2l.HexInts
import Verif.A2l.Ignored
import Verif.A2l.IgnoredOdd
import Verif.A2l.IntProps
import Verif.A2l.KwProps
import Verif.A2l.KwProps2
import Verif.A2l.Layout
import Verif.A2l.LayoutOne
import Verif.A2l.Local
import Verif.A2l.LooseProps
import Verif.A2l.LooseProps2
import Verif.A2l.Marks
import Verif.A2l.Missing
import Verif.A2l.ModEvery
import Verif.A2l.ModExamples
import Verif.A2l.ModFile
import Verif.A2l.ModIff
import Verif.A2l.ModLast
import Verif.A2l.ModProps
import Verif.A2l.ModProps2
import Verif.A2l.ObjProps2
import Verif.A2l.OddProps
import Verif.A2l.OriginProps
import Verif.A2l.ParseProps
import Verif.A2l.Parts
import Verif.A2l.PartsOdd
import Verif.A2l.PartsRest
import Verif.A2l.PrintFile
import Verif.A2l.PrintOddProps
import Verif.A2l.PrintOrder
import Verif.A2l.PrintOrderAll
import Verif.A2l.PrintText
import Verif.A2l.RenameProps
import Verif.A2l.RenameText
import Verif.A2l.Shared
import Verif.A2l.TabProps
import Verif.A2l.TokClean
import Verif.A2l.TokCostProps
import Verif.A2l.TokCpu
import Verif.A2l.TokExact
import Verif.A2l.TokLost
import Verif.A2l.TokProps
import Verif.A2l.TokVerbatim
import Verif.A2l.Truncated
import Verif.A2l.Utf16Props
import Verif.A2l.Utf8Props
import Verif.A2l.WhiteSpace
import Verif.Calib.Exact
import Verif.Calib.Float64Claims
import Verif.Calib.Float64Mono
import Verif.Calib.Float64More
import Verif.Calib.Float64Ops
import Verif.Calib.Float64Rat
import Verif.Calib.Float64Sqrt
import Verif.Calib.FncValues
import Verif.Calib.LinkConst
import Verif.Calib.LinkConv
import Verif.Calib.LinkFloat
import Verif.Calib.LinkLayout
import Verif.Calib.LinkProps
import Verif.Calib.LinkRat
import Verif.Calib.LinkTab
import Verif.Calib.Lossless
import Verif.Calib.ParseFloatProps
import Verif.Calib.Props
import Verif.Calib.Props2
import Verif.Calib.Props3
import Verif.Calib.Props4
import Verif.Calib.Props5
import Verif.Calib.RatExact
import Verif.Calib.Record
import Verif.Calib.Walk
import Verif.Conc.A2lBound
import Verif.Conc.A2lRunAll
import Verif.Conc.A2lRunProps
import Verif.Conc.EndToEnd
import Verif.Conc.FirstErr
import Verif.Conc.FormatIff
import Verif.Conc.HexBound
import Verif.Conc.HexRunProps
import Verif.Conc.LeakIff
import Verif.Conc.Leftover
import Verif.Conc.LeftoverIff
import Verif.Conc.LogFile
import Verif.Conc.Props
import Verif.Conc.RaceA2lProps
import Verif.Conc.RaceHexProps
import Verif.Conc.RaceWholeProps
import Verif.Conc.WholeBound
import Verif.Conc.WholeCut
import Verif.Conc.WholeExact
import Verif.Conc.WholeProps
import Verif.Ihex.Blanks
import Verif.Ihex.Chunks
import Verif.Ihex.CountProps
import Verif.Ihex.Cut
import Verif.Ihex.ExactProps
import Verif.Ihex.Fate
import Verif.Ihex.IffProps
import Verif.Ihex.JoinIff
import Verif.Ihex.MixedEnds
import Verif.Ihex.Overlap
import Verif.Ihex.Props
import Verif.Ihex.Props2
import Verif.Ihex.Props3
import Verif.Ihex.Relocate
import Verif.Ihex.Stray
import Verif.Ihex.TextProps
import Verif.Ihex.Transpose
import Verif.Ihex.Unread
import Verif.Ihex.Values
import Verif.Ihex.VisitProps
import Verif.Srec.CountProps
import Verif.Srec.CpuProps
import Verif.Srec.FormatIff
import Verif.Srec.HeaderIff
import Verif.Srec.Props
import Verif.Srec.Props2
import Verif.Srec.SizeProps
import Verif.Srec.TextProps

/-! The axioms of every property theorem, printed during the build. -/

#print axioms Verif.Ihex.C01_offsets_partial
#print axioms Verif.Ihex.C01_parseHex_partial
#print axioms Verif.Ihex.C01_terminates
#print axioms Verif.Ihex.C01_exact
#print axioms Verif.Ihex.C01_schedule
#print axioms Verif.Ihex.C01_iff
#print axioms Verif.Ihex.C01_tight
#print axioms Verif.Ihex.C01_false_everywhere
#print axioms Verif.Ihex.C01_false
#print axioms Verif.Ihex.C02_roundtrip_partial
#print axioms Verif.Ihex.C02_iff
#print axioms Verif.Ihex.C02_returns
#print axioms Verif.Ihex.C02_false_everywhere
#print axioms Verif.Ihex.C02_false
#print axioms Verif.Ihex.C03_checksum
#print axioms Verif.Ihex.C03_success
#print axioms Verif.Ihex.C03_reported
#print axioms Verif.Ihex.C03_recognised
#print axioms Verif.Ihex.C04_corruption_partial
#print axioms Verif.Ihex.C04_iff
#print axioms Verif.Ihex.C04_false
#print axioms Verif.Ihex.C05_collision
#print axioms Verif.Ihex.C05_file_partial
#print axioms Verif.Ihex.C05_exact
#print axioms Verif.Ihex.C05_iff
#print axioms Verif.Ihex.C05_one_cpu
#print axioms Verif.Ihex.C05_every_cpu
#print axioms Verif.Ihex.C05_missed
#print axioms Verif.Ihex.C05_spurious
#print axioms Verif.Ihex.C05_false
#print axioms Verif.Ihex.C06_no_panic
#print axioms Verif.Ihex.C06_parseRecord
#print axioms Verif.Ihex.C07_no_loss_partial
#print axioms Verif.Ihex.C07_lost
#print axioms Verif.Ihex.C07_false_everywhere
#print axioms Verif.Ihex.C07_false
#print axioms Verif.Ihex.C08_cpu_count_partial
#print axioms Verif.Ihex.C08_exact
#print axioms Verif.Ihex.C08_false
#print axioms Verif.Hex.C08_false_everywhere
#print axioms Verif.Ihex.C08_false_wellFormed
#print axioms Verif.Ihex.C09_ihex
#print axioms Verif.Ihex.C09_ihex_lines
#print axioms Verif.Srec.C09_srec
#print axioms Verif.Ihex.C10_wrap
#print axioms Verif.Conc.A2lRun.C100_a2l
#print axioms Verif.Conc.A2lRun.C100_a2l_text
#print axioms Verif.Conc.Whole.C100_call
#print axioms Verif.A2l.Props.C101_partial
#print axioms Verif.A2l.Props.C101_even_partial
#print axioms Verif.A2l.Props.C101_square
#print axioms Verif.A2l.Props.C101_open
#print axioms Verif.A2l.Props.C101_false
#print axioms Verif.Ihex.C102_ihex
#print axioms Verif.Srec.C102_srec
#print axioms Verif.Ihex.C103_partial
#print axioms Verif.Ihex.C103_no_segments
#print axioms Verif.Ihex.C103_false
#print axioms Verif.A2l.Rename.C104_sequential
#print axioms Verif.A2l.Rename.C104_parallel
#print axioms Verif.A2l.Rename.C104_keys
#print axioms Verif.A2l.Rename.C104_reserved
#print axioms Verif.A2l.Rename.C104_tokens
#print axioms Verif.A2l.Rename.C104_file
#print axioms Verif.Ihex.Reloc.C105_ihex_partial
#print axioms Verif.Ihex.Reloc.C105_ihex_iff
#print axioms Verif.Ihex.Reloc.C105_ihex_false
#print axioms Verif.Srec.Reloc.C105_srec
#print axioms Verif.Ihex.Values.C106_ihex
#print axioms Verif.Srec.Values.C106_srec
#print axioms Verif.Ihex.Chunks.C107_ihex_partial
#print axioms Verif.Ihex.Chunks.C107_ihex_iff
#print axioms Verif.Ihex.Chunks.C107_ihex_false
#print axioms Verif.Srec.Chunks.C107_srec
#print axioms Verif.Ihex.Blanks.C108_ihex_behind
#print axioms Verif.Ihex.Blanks.C108_ihex_lines_partial
#print axioms Verif.Ihex.Blanks.C108_ihex_lost
#print axioms Verif.Ihex.Blanks.C108_ihex_false
#print axioms Verif.Srec.Blanks.C108_srec_behind
#print axioms Verif.Srec.Blanks.C108_srec_lines_partial
#print axioms Verif.Srec.Blanks.C108_srec_lost
#print axioms Verif.Srec.Blanks.C108_srec_false
#print axioms Verif.Ihex.Ends.C109_ihex_mixed
#print axioms Verif.Ihex.Ends.C109_ihex_cr
#print axioms Verif.Srec.Ends.C109_srec_mixed
#print axioms Verif.Srec.Ends.C109_srec_cr
#print axioms Verif.Ihex.C11_table
#print axioms Verif.Ihex.C11_file_partial
#print axioms Verif.Ihex.C11_file_false
#print axioms Verif.Srec.C11_srec_upper_partial
#print axioms Verif.Srec.C11_srec_false
#print axioms Verif.Srec.C11_srec_lower_loses
#print axioms Verif.Ihex.Stray.C110_ihex_partial
#print axioms Verif.Ihex.Stray.C110_ihex_ignored
#print axioms Verif.Ihex.Stray.C110_ihex_false
#print axioms Verif.Srec.Stray.C110_srec_partial
#print axioms Verif.Srec.Stray.C110_srec_ignored
#print axioms Verif.Srec.Stray.C110_srec_false
#print axioms Verif.Srec.Cut.C111_srec
#print axioms Verif.Ihex.Cut.C111_ihex_partial
#print axioms Verif.Ihex.Cut.C111_ihex_false
#print axioms Verif.A2l.Truncated.C112_tokens
#print axioms Verif.A2l.Truncated.C112_cut
#print axioms Verif.Conc.A2lRun.C112_runs
#print axioms Verif.Conc.Whole.C113_a2l
#print axioms Verif.Conc.Whole.C113_srec
#print axioms Verif.Conc.Whole.C113_ihex_partial
#print axioms Verif.Conc.Whole.C113_ihex_false
#print axioms Verif.Srec.Unread.C114_srec
#print axioms Verif.Ihex.Unread.C114_ihex_partial
#print axioms Verif.Ihex.Unread.C114_ihex_one
#print axioms Verif.Ihex.Unread.C114_ihex_false
#print axioms Verif.Srec.Transpose.C115_srec
#print axioms Verif.Ihex.Transpose.C115_ihex_partial
#print axioms Verif.Ihex.Transpose.C115_ihex_false
#print axioms Verif.A2l.Props.C116_partial
#print axioms Verif.A2l.Props.C116_lost_partial
#print axioms Verif.A2l.Props.C116_file_partial
#print axioms Verif.A2l.Props.C116_false
#print axioms Verif.A2l.Props.C116_false_comb
#print axioms Verif.A2l.Props.C116_false_row
#print axioms Verif.A2l.Props.C116_false_range
#print axioms Verif.A2l.Props.C116_false_frame
#print axioms Verif.Ihex.Overlap.C117_ihex_partial
#print axioms Verif.Ihex.Overlap.C117_ihex_twice_partial
#print axioms Verif.Ihex.Overlap.C117_ihex_false
#print axioms Verif.Srec.Overlap.C117_srec_partial
#print axioms Verif.Srec.Overlap.C117_srec_false
#print axioms Verif.Ihex.Fate.C118_fate
#print axioms Verif.Ihex.Fate.C118_high
#print axioms Verif.Ihex.Fate.C118_sign
#print axioms Verif.Calib.Mono.C119_rising
#print axioms Verif.Calib.Mono.C119_falling
#print axioms Verif.Calib.Mono.C119_integers
#print axioms Verif.Calib.Mono.C119_fused
#print axioms Verif.Calib.Mono.C119_strict_false
#print axioms Verif.Ihex.C12_ihex_partial
#print axioms Verif.Ihex.C12_ihex_everywhere
#print axioms Verif.Ihex.C12_ihex_false
#print axioms Verif.Srec.C12_srec_partial
#print axioms Verif.Srec.C12_srec_everywhere
#print axioms Verif.Srec.C12_srec_false
#print axioms Verif.Calib.Lossless.C120_partial
#print axioms Verif.Calib.Lossless.C120_false
#print axioms Verif.Srec.C13_roundtrip
#print axioms Verif.Srec.C13_text
#print axioms Verif.Srec.encode_no_newline
#print axioms Verif.Srec.C14_checksum
#print axioms Verif.Srec.C14_success
#print axioms Verif.Srec.C14_corruption
#print axioms Verif.Srec.C14_short_line_undetected
#print axioms Verif.Srec.C15_collision
#print axioms Verif.Srec.C15_file
#print axioms Verif.Srec.C16_no_panic
#print axioms Verif.Srec.C16_parseRecord
#print axioms Verif.Srec.C17_partial
#print axioms Verif.Srec.C17_empty_header_partial
#print axioms Verif.Srec.recognised_tail
#print axioms Verif.Srec.C17_exact
#print axioms Verif.Srec.C17_iff
#print axioms Verif.Srec.C17_one_cpu
#print axioms Verif.Srec.C17_false_everywhere
#print axioms Verif.Srec.C17_false
#print axioms Verif.Srec.C18_formats_agree_partial
#print axioms Verif.Srec.C18_iff
#print axioms Verif.Srec.C18_false
#print axioms Verif.Conc.C19_every_run
#print axioms Verif.Conc.C19_maximal_run
#print axioms Verif.Conc.C19_ihex_records
#print axioms Verif.Conc.C19_ihex_data
#print axioms Verif.Conc.C19_early_return
#print axioms Verif.Conc.C19_srec_records
#print axioms Verif.Conc.C19_srec_data
#print axioms Verif.Conc.C20_never_blocks
#print axioms Verif.Conc.C20_verdict
#print axioms Verif.Conc.C20_ihex
#print axioms Verif.Conc.C20_srec
#print axioms Verif.Conc.C21_terminates
#print axioms Verif.Conc.C21_no_panic
#print axioms Verif.Conc.C21_result
#print axioms Verif.Conc.C21_logger
#print axioms Verif.Conc.C22_partial
#print axioms Verif.Conc.C22_last
#print axioms Verif.Conc.C22_iff
#print axioms Verif.Conc.C22_false_everywhere
#print axioms Verif.Conc.C22_false
#print axioms Verif.Conc.C23_hex_partial
#print axioms Verif.Conc.C23_s19_partial
#print axioms Verif.Conc.C23_other_partial
#print axioms Verif.Conc.C23_exact
#print axioms Verif.Conc.C23_iff
#print axioms Verif.Conc.C23_false
#print axioms Verif.A2l.C24_partial
#print axioms Verif.A2l.C24_lines_partial
#print axioms Verif.A2l.Props.C24_any_partial
#print axioms Verif.A2l.C24_false
#print axioms Verif.A2l.Props.C24_false_everywhere
#print axioms Verif.A2l.C25_partial
#print axioms Verif.A2l.C25_false
#print axioms Verif.A2l.C25_false_banner
#print axioms Verif.A2l.C25_false_glued
#print axioms Verif.A2l.C26_partial
#print axioms Verif.A2l.C26_false
#print axioms Verif.A2l.C26_escaped_quote_deleted
#print axioms Verif.A2l.C27_partial
#print axioms Verif.A2l.C27_no_slash_partial
#print axioms Verif.A2l.Props.C27_iff
#print axioms Verif.A2l.Props.C27_lost
#print axioms Verif.A2l.C27_nothing_invented
#print axioms Verif.A2l.C27_tokenizer_total
#print axioms Verif.A2l.C27_false
#print axioms Verif.A2l.Props.C28_terminates
#print axioms Verif.A2l.Props.C28_file
#print axioms Verif.A2l.Props.C28_needs_end
#print axioms Verif.A2l.Props.C28_multithreaded
#print axioms Verif.A2l.Props.C28_file_multithreaded
#print axioms Verif.A2l.Props.C29_partial
#print axioms Verif.A2l.Props.C29_false
#print axioms Verif.A2l.Props.C30_partial
#print axioms Verif.A2l.Props.C30_frame_partial
#print axioms Verif.A2l.Props.C30_false
#print axioms Verif.A2l.Props.C31_partial
#print axioms Verif.A2l.Props.C31_tables
#print axioms Verif.A2l.Props.C31_irregular
#print axioms Verif.A2l.Props.C31_variant_coding_any_word
#print axioms Verif.A2l.Props.C31_bit_operation_partial
#print axioms Verif.A2l.Props.C31_frame
#print axioms Verif.A2l.Props.C31_matrix_dim
#print axioms Verif.A2l.Props.C31_false
#print axioms Verif.A2l.Props.C32_partial
#print axioms Verif.A2l.Props.C32_only_partial
#print axioms Verif.A2l.Props.C32_block_partial
#print axioms Verif.A2l.Props.C32_seq_partial
#print axioms Verif.A2l.Props.C32_false
#print axioms Verif.A2l.Props.C32_measurement_false
#print axioms Verif.A2l.Props.C32_typedef_measurement_false
#print axioms Verif.A2l.Props.C32_unit_false
#print axioms Verif.A2l.Props.C32_matrix_dim_false
#print axioms Verif.A2l.Props.C32_no_rescale_x_false
#print axioms Verif.A2l.Props.C32_frame_false
#print axioms Verif.A2l.Props.C32_overwrite_false
#print axioms Verif.A2l.Props.C32_irregular_partial
#print axioms Verif.A2l.Props.C32_irregular_only
#print axioms Verif.A2l.Props.C32_irregular_illegal
#print axioms Verif.A2l.Props.C32_dead_fields
#print axioms Verif.A2l.Props.C32_measurement_lost
#print axioms Verif.A2l.Props.C32_unit_lost
#print axioms Verif.A2l.Props.C32_memory_segment_lost
#print axioms Verif.A2l.Props.C32_memory_layout
#print axioms Verif.A2l.Props.C32_var_forbidden_comb
#print axioms Verif.A2l.Props.C32_blob_address_type
#print axioms Verif.A2l.Props.C32_blob_always_direct
#print axioms Verif.A2l.Props.C32_overwrite_lost
#print axioms Verif.A2l.Props.C32_bit_operation
#print axioms Verif.A2l.Props.C32_bit_operation_exact
#print axioms Verif.A2l.Props.C32_frame_exact
#print axioms Verif.A2l.Props.C32_frame_lost
#print axioms Verif.A2l.Props.C32_frame_name
#print axioms Verif.A2l.Props.C32_matrix_dim_exact
#print axioms Verif.A2l.Props.C32_matrix_dim_lost
#print axioms Verif.A2l.Props.C32_frame_measurement
#print axioms Verif.A2l.Props.C32_frame_measurement_only
#print axioms Verif.A2l.Props.C32_no_rescale_x_exact
#print axioms Verif.A2l.Props.C32_guard_rails
#print axioms Verif.A2l.Props.C32_symbol_type_link
#print axioms Verif.A2l.Props.C33_integers
#print axioms Verif.A2l.Props.C33_one
#print axioms Verif.A2l.Props.C34_partial
#print axioms Verif.A2l.Props.C34_file_partial
#print axioms Verif.A2l.Props.C34_content
#print axioms Verif.A2l.Props.C34_iff
#print axioms Verif.A2l.Props.C34_file_iff
#print axioms Verif.A2l.Props.C34_false
#print axioms Verif.A2l.Props.C34_false_everywhere
#print axioms Verif.A2l.Props.C34_false_nested
#print axioms Verif.A2l.Props.C34_false_error
#print axioms Verif.A2l.Props.C35_no_deadlock
#print axioms Verif.A2l.Props.C35_terminates
#print axioms Verif.A2l.Props.C35_workers_return
#print axioms Verif.A2l.Props.C35_returns
#print axioms Verif.A2l.Props.C35_no_loss
#print axioms Verif.A2l.Props.C36_sequential_partial
#print axioms Verif.A2l.Props.C36_parallel_partial
#print axioms Verif.A2l.Props.C36_exact
#print axioms Verif.A2l.Props.C36_found
#print axioms Verif.A2l.Props.C36_iff
#print axioms Verif.A2l.Props.C36_pieces
#print axioms Verif.A2l.Props.C36_false
#print axioms Verif.A2l.Props.C37_partial
#print axioms Verif.A2l.Props.C37_mixup
#print axioms Verif.A2l.Props.C37_false_everywhere
#print axioms Verif.A2l.Props.C37_false
#print axioms Verif.Calib.Props.C38_partial
#print axioms Verif.Calib.Props.C38_crash_iff
#print axioms Verif.Calib.Props.C38_false
#print axioms Verif.Calib.Props.C39_partial
#print axioms Verif.Calib.Props.C39_small_borders
#print axioms Verif.Calib.Props.C39_zero_border_crash
#print axioms Verif.Calib.Props.C39_false
#print axioms Verif.Calib.Props.C40_partial
#print axioms Verif.Calib.Props.C40_loop
#print axioms Verif.Calib.Props.C40_always_crashes
#print axioms Verif.Calib.Props.C40_false
#print axioms Verif.Calib.Props.C41_partial
#print axioms Verif.Calib.Props.C41_exact
#print axioms Verif.Calib.Props.C41_crash_iff
#print axioms Verif.Calib.Props.C41_long_truncated
#print axioms Verif.Calib.Props.C41_false
#print axioms Verif.Calib.Props.C42_partial
#print axioms Verif.Calib.Props.C42_exact
#print axioms Verif.Calib.Props.C42_rounded
#print axioms Verif.Calib.Props.C42_word_as_32_bits
#print axioms Verif.Calib.Props.C42_long_crashes
#print axioms Verif.Calib.Props.C42_float16_wrong
#print axioms Verif.Calib.Props.C42_false_uword
#print axioms Verif.Calib.Props.C42_false_ulong
#print axioms Verif.Calib.Props.C42_false_precision
#print axioms Verif.Calib.Props.C43_partial
#print axioms Verif.Calib.Props.C43_always_default
#print axioms Verif.Calib.Props.C43_missing_table
#print axioms Verif.Calib.Props.C43_short_table_crash
#print axioms Verif.Calib.Props.C43_iff
#print axioms Verif.Calib.Props.C43_false
#print axioms Verif.Calib.Props.C44_partial
#print axioms Verif.Calib.Props.C44_iff
#print axioms Verif.Calib.Props.C44_false
#print axioms Verif.Calib.Props.C45_partial
#print axioms Verif.Calib.Props.C45_exact
#print axioms Verif.Calib.Props.C45_error_iff
#print axioms Verif.Calib.Props.C45_checked_partial
#print axioms Verif.Calib.Props.C45_linear_ratfunc_rejected
#print axioms Verif.Calib.Props.C45_false_identity
#print axioms Verif.Calib.Props.C45_false_square
#print axioms Verif.Calib.Props.C45_false_nan
#print axioms Verif.Calib.Props.exists_sqrt
#print axioms Verif.Calib.Props.C46
#print axioms Verif.Calib.Props.Field.name_injective
#print axioms Verif.Calib.Props.C47_partial
#print axioms Verif.Calib.Props.C47_false
#print axioms Verif.Link.C47_names
#print axioms Verif.A2l.Props.C48_partial
#print axioms Verif.A2l.Props.C48_content
#print axioms Verif.A2l.Props.C48_only
#print axioms Verif.A2l.Props.C48_false
#print axioms Verif.A2l.Props.C48_zero_false
#print axioms Verif.Calib.Props.C49_partial
#print axioms Verif.Calib.Props.C49_value_lost
#print axioms Verif.Calib.Props.C49_iff
#print axioms Verif.Calib.Props.C49_false
#print axioms Verif.Link.C49_text
#print axioms Verif.Link.C49_none
#print axioms Verif.Calib.Props.C50_partial
#print axioms Verif.Calib.Props.C50_false
#print axioms Verif.Srec.C51_partial
#print axioms Verif.Hex.C51_false_everywhere
#print axioms Verif.Srec.C51_false
#print axioms Verif.Calib.Props.C52_partial
#print axioms Verif.Calib.Props.C52_nothing_read
#print axioms Verif.Calib.Props.C52_read_crashes
#print axioms Verif.Calib.Props.C52_axis
#print axioms Verif.Calib.Props.C52_false
#print axioms Verif.Calib.Props.C53_always_zero_partial
#print axioms Verif.Calib.Props.C53_false
#print axioms Verif.Calib.Props.C54_partial
#print axioms Verif.Calib.Props.C54_false
#print axioms Verif.A2l.Props.C55_own_objects
#print axioms Verif.A2l.Props.C55_choice
#print axioms Verif.A2l.Props.C55_parallel_rejects
#print axioms Verif.A2l.Props.C56_project_partial
#print axioms Verif.A2l.Props.C56_file
#print axioms Verif.A2l.Props.C56_last
#print axioms Verif.A2l.Props.C56_words_accepted
#print axioms Verif.A2l.Props.C56_two_projects
#print axioms Verif.A2l.Props.C56_false
#print axioms Verif.A2l.Props.C57_table_partial
#print axioms Verif.A2l.Props.C57_seq_partial
#print axioms Verif.A2l.Props.C57_block_partial
#print axioms Verif.A2l.Props.C57_part_partial
#print axioms Verif.A2l.Props.C57_only
#print axioms Verif.A2l.Props.C57_part_lost
#print axioms Verif.A2l.Props.C57_parts_lost_list
#print axioms Verif.A2l.Props.C57_address_type_rejected
#print axioms Verif.A2l.Props.C57_lost_rejected
#print axioms Verif.A2l.Props.C57_false
#print axioms Verif.A2l.Props.C58_partial
#print axioms Verif.A2l.Props.C58_parallel
#print axioms Verif.A2l.Props.C58_false
#print axioms Verif.A2l.Props.C59_table_partial
#print axioms Verif.A2l.Props.C59_table_exact
#print axioms Verif.A2l.Props.C59_partial
#print axioms Verif.A2l.Props.C59_missing_taken
#print axioms Verif.A2l.Props.C59_surplus_rejected
#print axioms Verif.A2l.Props.C59_matrix_dim_missing
#print axioms Verif.A2l.Props.C59_false
#print axioms Verif.Ihex.C60_ihex_partial
#print axioms Verif.Ihex.C60_ihex_accepted
#print axioms Verif.Ihex.C60_ihex_false
#print axioms Verif.Srec.C60_srec_partial
#print axioms Verif.Srec.C60_srec_accepted
#print axioms Verif.Srec.C60_srec_false
#print axioms Verif.Ihex.C61_partial
#print axioms Verif.Ihex.C61_ignored
#print axioms Verif.Ihex.C61_iff
#print axioms Verif.Ihex.C61_false
#print axioms Verif.Ihex.C62_ihex_partial
#print axioms Verif.Ihex.C62_ihex_ignored
#print axioms Verif.Ihex.C62_ihex_false
#print axioms Verif.Srec.C62_srec_partial
#print axioms Verif.Srec.C62_srec_malformed
#print axioms Verif.Srec.C62_srec_dropped
#print axioms Verif.Srec.C62_srec_lost
#print axioms Verif.Srec.C62_srec_false
#print axioms Verif.Ihex.C63_ihex_order_partial
#print axioms Verif.Ihex.C63_ihex_join_partial
#print axioms Verif.Ihex.C63_ihex_join_iff
#print axioms Verif.Ihex.C63_ihex_join_false
#print axioms Verif.Srec.C63_srec_order
#print axioms Verif.Srec.C63_srec_join
#print axioms Verif.A2l.Props.C64_marks_partial
#print axioms Verif.A2l.Props.C64_absent_zero
#print axioms Verif.A2l.Props.C64_undeclared_zero
#print axioms Verif.A2l.Props.C64_false
#print axioms Verif.A2l.Props.C65_parts_partial
#print axioms Verif.A2l.Props.C65_irregular_partial
#print axioms Verif.A2l.Props.C65_bit_operation
#print axioms Verif.A2l.Props.C65_frame
#print axioms Verif.A2l.Props.C65_tables
#print axioms Verif.A2l.Props.C65_file
#print axioms Verif.A2l.Props.partsOk_all
#print axioms Verif.Link.C66_partial
#print axioms Verif.Link.C66_answers
#print axioms Verif.Link.uses_module
#print axioms Verif.Link.C66_false
#print axioms Verif.Link.C67_verbal_partial
#print axioms Verif.Link.C67_numeric_partial
#print axioms Verif.Link.C67_range_exact
#print axioms Verif.Link.C67_range_crash
#print axioms Verif.Link.C67_range_false
#print axioms Verif.Link.C68_partial
#print axioms Verif.Link.C68_rat_func_partial
#print axioms Verif.Link.method_fields
#print axioms Verif.Link.part_flat
#print axioms Verif.Link.C68_false
#print axioms Verif.Link.C69_partial
#print axioms Verif.Link.C69_layout_partial
#print axioms Verif.Link.C69_address
#print axioms Verif.Link.C69_decode
#print axioms Verif.Link.C69_align
#print axioms Verif.Link.C69_positions
#print axioms Verif.Link.C69_nothing_read
#print axioms Verif.Link.C69_false
#print axioms Verif.A2l.Props.C70_partial
#print axioms Verif.A2l.Props.C70_object_partial
#print axioms Verif.A2l.Props.C70_tokens_partial
#print axioms Verif.A2l.Props.C70_lines
#print axioms Verif.A2l.Props.C70_one_module_partial
#print axioms Verif.A2l.Props.C70_false
#print axioms Verif.A2l.Props.C71_order_partial
#print axioms Verif.A2l.Props.C71_added_partial
#print axioms Verif.A2l.Props.C71_odd_partial
#print axioms Verif.A2l.Props.C71_file_partial
#print axioms Verif.A2l.Props.C71_false
#print axioms Verif.Calib.Props.C72_partial
#print axioms Verif.Calib.Props.C72_false
#print axioms Verif.Calib.Props.C72_list_partial
#print axioms Verif.Calib.Props.C72_list_false
#print axioms Verif.Calib.Props.C72_reader_partial
#print axioms Verif.Calib.Props.C72_address_types
#print axioms Verif.Ihex.C73_schedule
#print axioms Verif.A2l.Props.C74_own_text
#print axioms Verif.A2l.Props.C74_ahead
#print axioms Verif.A2l.Props.C74_exception
#print axioms Verif.A2l.Props.C75_nothing_invented
#print axioms Verif.A2l.Props.C75_parallel
#print axioms Verif.A2l.Props.C75_own
#print axioms Verif.A2l.Props.C75_words
#print axioms Verif.A2l.Props.C75_false_error
#print axioms Verif.A2l.C76_clean_up
#print axioms Verif.A2l.C76_quotes_never
#print axioms Verif.A2l.C76_once
#print axioms Verif.A2l.C76_tokens
#print axioms Verif.A2l.C76_clean
#print axioms Verif.A2l.C76_document
#print axioms Verif.Ihex.C77_ihex
#print axioms Verif.Ihex.C77_text
#print axioms Verif.Ihex.C77_same
#print axioms Verif.Ihex.C77_dropped
#print axioms Verif.Ihex.clash_or
#print axioms Verif.Ihex.clash_not_nodup
#print axioms Verif.Srec.C77_srec
#print axioms Verif.Srec.C77_srec_text
#print axioms Verif.A2l.Props.C78_object
#print axioms Verif.A2l.Props.C78_file_partial
#print axioms Verif.A2l.Props.C78_kinds
#print axioms Verif.Calib.Props.C79_walk_partial
#print axioms Verif.Calib.Props.C79_record_partial
#print axioms Verif.Calib.Props.C79_values_partial
#print axioms Verif.Calib.Props.C79_axis_partial
#print axioms Verif.Calib.Props.C79_axis_error
#print axioms Verif.Calib.Props.C79_false
#print axioms Verif.Calib.Props.C79_order_false
#print axioms Verif.A2l.Props.C80_documents
#print axioms Verif.A2l.Props.C80_tokens
#print axioms Verif.A2l.Props.C80_file_partial
#print axioms Verif.A2l.Props.C80_one_module_partial
#print axioms Verif.A2l.Props.C80_same_partial
#print axioms Verif.A2l.Props.C80_cpus_partial
#print axioms Verif.A2l.Props.C80_false
#print axioms Verif.EndToEnd.C81_partial
#print axioms Verif.EndToEnd.C81_returns
#print axioms Verif.EndToEnd.C81_answers_partial
#print axioms Verif.EndToEnd.C81_lookup
#print axioms Verif.EndToEnd.C81_error
#print axioms Verif.EndToEnd.C81_unsupported
#print axioms Verif.EndToEnd.C81_false
#print axioms Verif.Conc.HexRun.C82_ihex_safe
#print axioms Verif.Conc.HexRun.C82_ihex_returns
#print axioms Verif.Conc.HexRun.C82_ihex_terminates
#print axioms Verif.Conc.HexRun.C82_ihex_sequential
#print axioms Verif.Conc.HexRun.C82_exclusive
#print axioms Verif.Conc.HexRun.C82_checksums_undisturbed
#print axioms Verif.Conc.HexRun.C82_srec_safe
#print axioms Verif.Conc.HexRun.C82_srec_returns
#print axioms Verif.Conc.HexRun.C82_srec_terminates
#print axioms Verif.Conc.HexRun.C82_srec_sequential
#print axioms Verif.Conc.HexRun.C83_partial
#print axioms Verif.Conc.HexRun.C83_checksum
#print axioms Verif.Conc.HexRun.C83_srec
#print axioms Verif.Conc.HexRun.C83_success_ihex
#print axioms Verif.Conc.HexRun.C83_success_srec
#print axioms Verif.Conc.HexRun.C83_leak
#print axioms Verif.Conc.HexRun.C83_iff
#print axioms Verif.Conc.HexRun.C83_one_cpu
#print axioms Verif.Conc.HexRun.C83_false_everywhere
#print axioms Verif.Conc.HexRun.C83_false
#print axioms Verif.Conc.A2lRun.C84_safe
#print axioms Verif.Conc.A2lRun.C84_returns
#print axioms Verif.Conc.A2lRun.C84_terminates
#print axioms Verif.Conc.A2lRun.C84_completes
#print axioms Verif.Conc.A2lRun.C84_no_leak
#print axioms Verif.Conc.A2lRun.C84_every_result
#print axioms Verif.Conc.A2lRun.C84_results
#print axioms Verif.Conc.A2lRun.C84_two_results
#print axioms Verif.Conc.A2lRun.written_read
#print axioms Verif.Conc.Whole.C85_safe
#print axioms Verif.Conc.Whole.crashed_sees
#print axioms Verif.Conc.Whole.C85_results
#print axioms Verif.Conc.Whole.C85_same_memory
#print axioms Verif.Conc.Whole.C85_either_error
#print axioms Verif.Conc.Whole.C85_returns
#print axioms Verif.Conc.Whole.C85_terminates
#print axioms Verif.Conc.Whole.C85_completes
#print axioms Verif.Conc.Whole.C85_content_partial
#print axioms Verif.Conc.Whole.C85_answers_partial
#print axioms Verif.Conc.Whole.C85_bad_sum
#print axioms Verif.Conc.Whole.C85_collision
#print axioms Verif.A2l.Props.C86_tokens
#print axioms Verif.A2l.Props.C86_reading_unique
#print axioms Verif.A2l.Props.C86_total
#print axioms Verif.A2l.Props.C86_cut
#print axioms Verif.A2l.Props.C86_words
#print axioms Verif.Calib.Props.C87_linear_partial
#print axioms Verif.Calib.Props.C87_exact_partial
#print axioms Verif.Calib.Props.C87_integers_partial
#print axioms Verif.Calib.Props.C87_error_partial
#print axioms Verif.Calib.Props.C87_bytes_partial
#print axioms Verif.Calib.Props.C87_table
#print axioms Verif.Calib.Props.C87_fused
#print axioms Verif.Calib.Props.C87_refines_partial
#print axioms Verif.Calib.Props.C87_raw
#print axioms Verif.Calib.Props.C87_bits64
#print axioms Verif.Calib.Props.C87_bits32
#print axioms Verif.Calib.Props.C87_special
#print axioms Verif.Calib.Props.C87_infinite
#print axioms Verif.Calib.Props.pow2_rounds
#print axioms Verif.Calib.Props.C87_ratfunc_partial
#print axioms Verif.Calib.Props.C87_ratfunc_refused
#print axioms Verif.Calib.Props.C87_ratfunc_nan
#print axioms Verif.Calib.Props.C87_false
#print axioms Verif.Calib.Props.C87_processor_false
#print axioms Verif.Calib.Props.C87_overflow_false
#print axioms Verif.Calib.Props.add_rounds
#print axioms Verif.Calib.Props.sub_rounds
#print axioms Verif.Calib.Props.mul_rounds
#print axioms Verif.Calib.Props.div_rounds
#print axioms Verif.Calib.Props.sqrt_rounds
#print axioms Verif.Calib.Props.rounds_unique
#print axioms Verif.Calib.Props.C88_partial
#print axioms Verif.Calib.Props.C88_nearest
#print axioms Verif.Calib.Props.C88_exact
#print axioms Verif.Calib.Props.C88_named
#print axioms Verif.Calib.Props.C88_syntax
#print axioms Verif.Calib.Props.C88_false
#print axioms Verif.Calib.Props.C88_exponent_false
#print axioms Verif.Link.C88_accepted
#print axioms Verif.Link.C88_method
#print axioms Verif.Link.C88_linear
#print axioms Verif.Link.C88_table
#print axioms Verif.A2l.Bytes.C89_seen
#print axioms Verif.A2l.Bytes.C89_bytes
#print axioms Verif.A2l.Bytes.C89_utf8
#print axioms Verif.A2l.Bytes.C89_codepage
#print axioms Verif.A2l.Bytes.C89_partial
#print axioms Verif.A2l.Bytes.C89_false
#print axioms Verif.A2l.Bytes.C89_utf16
#print axioms Verif.Conc.Race.Hex.C90_ihex
#print axioms Verif.Conc.Race.Hex.C90_s19
#print axioms Verif.Conc.Race.Hex.C90_mutex_needed
#print axioms Verif.Conc.Race.Hex.C90_wait_needed
#print axioms Verif.Conc.Race.A2l.C90_a2l
#print axioms Verif.Conc.Race.A2l.C90_atomic_needed
#print axioms Verif.Conc.Race.A2l.C90_collectors_needed
#print axioms Verif.Conc.Race.A2l.C90_fields_needed
#print axioms Verif.Conc.Race.A2l.C90_overlap_false
#print axioms Verif.Conc.Race.All.C90_call
#print axioms Verif.Conc.Race.All.C90_logger_needed
#print axioms Verif.Conc.Race.All.C90_join_needed
#print axioms Verif.Conc.Race.All.C90_hex_overlap
#print axioms Verif.Conc.Race.All.C90_calls_overlap_false
#print axioms Verif.Conc.Whole.C91_success_ihex
#print axioms Verif.Conc.Whole.C91_srec
#print axioms Verif.Conc.Whole.C91_partial
#print axioms Verif.Conc.Whole.C91_leak
#print axioms Verif.Conc.Whole.C91_iff
#print axioms Verif.Conc.Whole.C91_one_cpu
#print axioms Verif.Conc.Whole.C91_false_everywhere
#print axioms Verif.Conc.Whole.C91_false
#print axioms Verif.A2l.Props.C92_partial
#print axioms Verif.A2l.Props.C92_only
#print axioms Verif.A2l.Props.C92_error
#print axioms Verif.A2l.Props.C92_succeeds
#print axioms Verif.A2l.Props.C92_typed
#print axioms Verif.A2l.Props.C92_lost
#print axioms Verif.A2l.Props.C92_false
#print axioms Verif.A2l.Props.C92_nan_false
#print axioms Verif.Conc.Whole.Log.C93_untouched
#print axioms Verif.Conc.Whole.Log.C93_partial
#print axioms Verif.Conc.Whole.Log.C93_iff
#print axioms Verif.Conc.Whole.Log.C93_no_log
#print axioms Verif.Conc.Whole.Log.C93_overwritten
#print axioms Verif.Conc.Whole.Log.C93_emptied
#print axioms Verif.Conc.Whole.Log.C93_false
#print axioms Verif.A2l.Props.C94_iff
#print axioms Verif.A2l.Props.C94_false
#print axioms Verif.A2l.Props.C95_seq_partial
#print axioms Verif.A2l.Props.C95_prefix
#print axioms Verif.A2l.Props.C95_irregular
#print axioms Verif.A2l.Props.C95_iff
#print axioms Verif.A2l.Props.C95_empty
#print axioms Verif.A2l.Props.C95_false
#print axioms Verif.A2l.Props.C96_surplus
#print axioms Verif.A2l.Props.C96_irregular
#print axioms Verif.A2l.Props.C96_tables
#print axioms Verif.A2l.Props.C96_seq_partial
#print axioms Verif.A2l.Props.C96_list_partial
#print axioms Verif.A2l.Props.C96_text_partial
#print axioms Verif.A2l.Props.C96_false
#print axioms Verif.A2l.Props.C97_sites
#print axioms Verif.A2l.Props.C97_block
#print axioms Verif.A2l.Props.C97_seq
#print axioms Verif.A2l.Props.C97_text_partial
#print axioms Verif.A2l.Props.C97_false
#print axioms Verif.A2l.Props.C98_call
#print axioms Verif.A2l.Props.C98_file
#print axioms Verif.A2l.Props.C98_text
#print axioms Verif.A2l.Props.C98_depth
#print axioms Verif.Conc.HexRun.C99_ihex
#print axioms Verif.Conc.HexRun.C99_srec
