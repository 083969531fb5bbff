# Axioms per theorem

Generated by `tools/axioms.py` from `#print axioms`. All are axioms of Lean itself.

## none

* C55: `Endian.C55_detects`

## propext

* C12: `Net.C12_bits`, `Net.C12_length`
* C14: `Net.C14_equivalence`, `Net.C14_false`
* C48: `Ripemd.C48_orders`
* C55: `Endian.C55_panics`
* C77: `HashHeap.C77_readonly`
* C104: `Source.C104_stream`
* C106: `Source.C106_own`
* C116: `Whirlpool.C116_fixed`

## propext, Classical.choice, Quot.sound

* C01: `Hex.C01_hex_roundtrip`
* C02: `Hex.C02_hex_canonical`, `Hex.C02_hex_injective`, `Hex.C02_hex_alphabet`
* C03: `Hex.C03_hex_accepts_iff`, `Hex.C03_hex_value`, `Hex.C03_hex_reencode`
* C04: `Hex.C04_hex_leftmost_error`, `Hex.C04_hex_length_error`, `Hex.C04_hex_total`
* C05: `Hex.C05_hex_fast_agrees`
* C06: `Hex.C06_hex_builds_agree`
* C07: `Codegen.C07_literal`
* C08: `Codegen.C08_sections_partial`, `Codegen.C08_panics`, `Codegen.C08_false`, `Codegen.C08_bad_size`
* C09: `Codegen.C09_sections_partial`, `Codegen.C09_panics`, `Codegen.C09_false`, `Codegen.C09_bad_size`
* C11: `Net.C11_total`
* C13: `Net.C13_contiguous`, `Net.C13_rejects`, `Net.C13_any_length`, `Net.C13_inverse`
* C15: `Net.C15_bounds_partial`, `Net.C15_false`, `Net.C15_panics`
* C16: `Net.C16_exact`, `Net.C16_runs`
* C17: `Net.C17_sorted`
* C18: `Net.C18_shortest`, `Net.C18_shortest_added`, `Net.C18_unjoinable`
* C19: `Net.C19_canonical`
* C20: `Net.C20_wellformed`
* C21: `Net.C21_exact_partial`, `Net.C21_diverges`
* C22: `Net.C22_values`, `Net.C22_constant`
* C23: `Net.C23_exact_partial`, `Net.C23_any`, `Net.C23_false_ipv6`, `Net.C23_false_noncontiguous`
* C24: `Net.C24_monotone`, `Net.C24_covered`
* C25: `Bytes.C25_exact`, `Bytes.C25_carry`, `Bytes.C25_addAny`
* C26: `Bytes.C26_exact`
* C27: `Bytes.C27_first_partial`, `Bytes.C27_be_wide`, `Bytes.C27_false`
* C29: `Bytes.C29_frame_partial`, `Bytes.C29_false`, `Bytes.C29_be_exact`
* C30: `Bytes.C30_inPlace_partial`, `Bytes.C30_double`, `Bytes.C30_prefix_le`, `Bytes.C30_prefix_be`, `Bytes.C30_false`
* C31: `Bytes.C31_platform_partial`
* C32: `Bytes.C32_zero`
* C33: `Bytes.C33_xor`, `Bytes.C33_twice`, `Bytes.C33_self`, `Bytes.C33_total`, `Bytes.C33_any`
* C36: `Checksum.C36_lrc_single`
* C37: `Checksum.C37_lrc_split_iff_partial`, `Checksum.C37_lrc_stream_partial`, `Checksum.C37_lrc_chunks_partial`
* C38: `Checksum.C38_fletcher16_partial`, `Checksum.C38_fletcher16_overflow`, `Checksum.C38_fletcher16_false`, `Checksum.C38_fletcher16_panics_iff`, `Checksum.C38_fletcher16_exact_partial`, `Checksum.C38_fletcher16_wrong`, `Checksum.C38_fletcher16_batches`
* C39: `Checksum.C39_fletcher32`
* C40: `Checksum.C40_fletcher64`
* C41: `Checksum.C41_fletcher_stream_partial`, `Checksum.C41_fletcher_chunks_partial`, `Checksum.C38_fletcher16_partial`
* C43: `Checksum.C43_luhn_valid`
* C44: `Checksum.C44_luhn_detects`, `Checksum.C44_luhn_detects_with_digit`, `Checksum.C44_luhn_misses`
* C45: `Checksum.C45_fletcher_detects`
* C46: `Ripemd.C46_stream128`, `Ripemd.C46_stream160`, `Ripemd.C46_stream256`, `Ripemd.C46_stream320`
* C47: `Ripemd.C47_digest128`, `Ripemd.C47_digest160`, `Ripemd.C47_digest256`, `Ripemd.C47_digest320`, `Ripemd.C47_compress128`, `Ripemd.C47_compress160`, `Ripemd.C47_compress256`, `Ripemd.C47_compress320`
* C48: `Ripemd.C48_permutation`, `Ripemd.C48_functions`
* C49: `Whirlpool.C49_stream`
* C50: `Whirlpool.C50_digest`, `Whirlpool.C50_compress`, `Whirlpool.C50_states`
* C51: `Whirlpool.C51_circulant`, `Whirlpool.C51_boxes`
* C52: `Ripemd.C52_ripemd`, `Whirlpool.C52_whirlpool`
* C53: `Ripemd.C53_ripemd_injective`, `Ripemd.C53_ripemd128_collision`, `Ripemd.C53_ripemd160_collision`, `Ripemd.C53_ripemd256_collision`, `Ripemd.C53_ripemd320_collision`, `Whirlpool.C53_whirlpool_injective`, `Whirlpool.C53_whirlpool_collision`
* C54: `Whirlpool.C54_cipher`, `Whirlpool.C54_hash`
* C55: `Endian.C55_reads`
* C57: `TestHelpers.C57_messages`, `TestHelpers.C57_count`, `TestHelpers.C57_plain`
* C58: `Net.C58_false`
* C59: `TestHelpers.C59_inverted_partial`, `TestHelpers.C59_false`, `TestHelpers.C59_nul`
* C60: `TestHelpers.C60_any`, `TestHelpers.C60_hashes`
* C61: `TestHelpers.C61_any`, `TestHelpers.C61_hashes_partial`, `TestHelpers.C61_invalid`, `TestHelpers.C61_false`
* C62: `Hex.C62_text`, `Hex.C62_names_partial`, `Hex.C62_not_ascii`, `Hex.C62_false`, `Hex.C62_injective`
* C63: `MakeTables.C63_var`, `MakeTables.C63_file`
* C64: `MakeTables.C64_const_partial`, `MakeTables.C64_empty`, `MakeTables.C64_false`
* C65: `Net.C65_within`, `Net.C65_step`, `Net.C65_determined`
* C66: `Net.C66_greedy`, `Net.C66_split`
* C67: `Checksum.C67_residue`, `Checksum.C67_lrc_detects`, `Checksum.C67_lrc_order`
* C68: `Checksum.C68_fletcher_swap`
* C69: `Checksum.C69_luhn_twins`
* C70: `Ripemd.C70_ripemd`, `Whirlpool.C70_whirlpool`
* C71: `Ripemd.C71_ripemd256`, `Ripemd.C71_ripemd320`, `Ripemd.C71_ripemd128`, `Ripemd.C71_ripemd160`
* C72: `Net.C72_within`, `Net.C72_step`, `Net.C72_determined`, `Net.C72_panic`, `Net.C72_range`, `Net.C72_pure`, `Net.C72_nil`
* C73: `Net.C73_order`
* C74: `Net.C74_length`
* C75: `Checksum.C75_two_words`, `Checksum.C75_neighbours`, `Checksum.C75_two_bits`
* C76: `Hex.C76_order`, `Hex.C76_append`, `Hex.C76_pieces`, `Hex.C76_case`
* C77: `HashHeap.C77_lone`, `HashHeap.C77_behaves`, `HashHeap.C77_sum`, `HashHeap.C77_persist`, `HashHeap.C77_overwrites`
* C78: `Whirlpool.C78_lookup`, `Whirlpool.C78_full`, `Whirlpool.C78_four`, `Whirlpool.C78_ten`, `Whirlpool.C78_sbox`
* C79: `Bytes.C79_le`, `Bytes.C79_be`, `Bytes.C79_le_unique`, `Bytes.C79_be_unique`, `Bytes.C79_le_ahead`, `Bytes.C79_be_ahead`
* C80: `Bytes.C80_le_exact`, `Bytes.C80_be_exact`, `Bytes.C80_le_partial`, `Bytes.C80_be_partial`, `Bytes.C80_not`
* C81: `Bytes.C81_a_partial`, `Bytes.C81_b_partial`, `Bytes.C81_not`
* C82: `Bytes.C82_8`, `Bytes.C82_le`, `Bytes.C82_be`, `Bytes.C82_carry`
* C83: `NetHeap.C83_tree`, `NetHeap.C83_list`, `NetHeap.C83_exact`, `NetHeap.C83_fresh`, `NetHeap.C83_stable`, `NetHeap.C83_returns`
* C84: `NetHeap.C84_not`
* C85: `Net.C85_partial`, `Net.C85_nil`
* C86: `Fletcher.C86_exact`, `Fletcher.C86_lost`, `Fletcher.C86_batch`, `Fletcher.C86_right`
* C87: `Source.C87_bcc`, `Source.C87_lrc`, `Source.C87_fletcher16`, `Source.C87_fletcher32`, `Source.C87_fletcher64`, `Source.C87_luhn`
* C88: `Source.C88_bcc`, `Source.C88_lrc`, `Source.C88_fletcher16`, `Source.C88_fletcher`, `Source.C88_luhn`
* C89: `Source.C89_encode`, `Source.C89_decode`, `Source.C89_invalid`, `Source.C89_odd`, `Source.C89_error`
* C90: `Source.C90_string`, `Source.C90_sections`, `Source.C90_panics`
* C91: `Source.C91_model`, `Source.C91_model_add`, `Source.C91_layout`, `Source.C91_zero`, `Source.C91_xor`, `Source.C91_add_le`, `Source.C91_add_be`, `Source.C91_short`
* C92: `Source.C92_functions`, `Source.C92_networks`, `Source.C92_step`, `Source.C92_session`, `Source.C92_list`, `Source.C92_returns`, `Source.C92_numbers`, `Source.C92_masks`, `Source.C92_equal`, `Source.C92_bounds`
* C93: `Source.C93_ripemd128`, `Source.C93_ripemd160`, `Source.C93_ripemd256`, `Source.C93_ripemd320`
* C94: `Source.C94_ripemd128`, `Source.C94_ripemd160`, `Source.C94_ripemd256`, `Source.C94_ripemd320`
* C95: `Source.C95_whirlpool`
* C96: `Source.C96_whirlpool`, `Source.C96_digest`
* C97: `Source.C97_title`, `Source.C97_match`, `Source.C97_silent`
* C98: `Source.C98_ripemd`, `Source.C98_whirlpool`, `Source.C98_checksum`, `Source.C98_fletcher16_panics`, `Source.C98_passes`
* C99: `Source.C99_circulant`, `Source.C99_constants`, `Source.C99_start`
* C100: `Source.C100_main`
* C101: `Source.C101_var`, `Source.C101_const`
* C102: `Source.C102_model`, `Source.C102_detects`, `Source.C102_panics`, `Source.C102_reads`, `Source.C102_platform`
* C103: `Source.C103_zero_partial`, `Source.C103_ends`, `Source.C103_nil`
* C104: `Source.C104_each`, `Source.C104_distinct`, `Source.C104_goes`, `Source.C104_new`
* C105: `Source.C105_each`, `Source.C105_distinct`, `Source.C105_list`, `Source.C105_same`, `Source.C105_goes`
* C106: `Source.C106_split`, `Source.C106_hash`, `Source.C106_tree`, `Source.C106_distinct`, `Source.C106_goes`, `Source.C106_program`, `Source.C106_start`
* C107: `Net.C107_nodes`, `Net.C107_height`, `Net.C107_call`, `Net.C107_calls`
* C108: `Source.C108_adds`, `Source.C108_lists`, `Source.C108_session`
* C109: `Source.C109_lex`, `Source.C109_tokens`, `Source.C109_parse`, `Source.C109_repository`
* C110: `Source.C110_once`, `Source.C110_function`, `Source.C110_canonical`, `Source.C110_order`, `Source.C110_any`, `Source.C110_length`, `Source.C110_more`, `Source.C110_values`, `Source.C110_not_ipv4`, `Source.C110_range`
* C111: `Checksum.C111_bcc_odd`, `Checksum.C111_lrc_two_bits`, `Checksum.C111_luhn_two`, `Checksum.C111_luhn_transposition`, `Checksum.C111_luhn_phonetic`
* C112: `Source.C112_bcc_value`, `Source.C112_bcc_byte`, `Source.C112_bcc_order`, `Source.C112_bcc_odd`, `Source.C112_bcc_burst`, `Source.C112_bcc_two_bits`, `Source.C112_bcc_residue`, `Source.C112_lrc_value`, `Source.C112_lrc_byte`, `Source.C112_lrc_order`, `Source.C112_lrc_two_bits`, `Source.C112_fletcher_value`, `Source.C112_fletcher_two_words`, `Source.C112_fletcher_neighbours`, `Source.C112_fletcher_swap`, `Source.C112_fletcher_two_bits`, `Source.C112_luhn_digit`, `Source.C112_luhn_two`, `Source.C112_luhn_transposition`, `Source.C112_luhn_twins`, `Source.C112_luhn_phonetic`
* C113: `Source.C113_ripemd`, `Source.C113_ripemd_collision`, `Source.C113_ripemd_extension`, `Source.C113_whirlpool`, `Source.C113_whirlpool_collision`, `Source.C113_whirlpool_extension`
* C114: `Whirlpool.C114_lookup`
* C115: `Source.C115_step`, `Source.C115_sum`, `Source.C115_counter`, `Source.C115_period`, `Source.C115_order`, `Source.C115_endian`
* C116: `Whirlpool.C116_polynomial`, `Whirlpool.C116_degree`
* C117: `Source.C117_quoted`, `Source.C117_sum`, `Source.C117_body`, `Source.C117_string`, `Source.C117_sections`, `Source.C117_one`
* C118: `Source.C118_main`, `Source.C118_var`, `Source.C118_const`, `Source.C118_one`
* C119: `Source.C119_total`, `Source.C119_agree`, `Source.C119_there`, `Source.C119_back`, `Source.C119_order`, `Source.C119_case`, `Source.C119_wrong`, `Source.C119_lost`
* C120: `Source.C120_bcc`, `Source.C120_lrc`, `Source.C120_missed`, `Source.C120_luhn`, `Source.C120_fletcher_never`, `Source.C120_fletcher`
* C121: `Source.C121_bcc`, `Source.C121_lrc`, `Source.C121_fletcher16`, `Source.C121_fletcher32`, `Source.C121_fletcher64`, `Source.C121_luhn`, `Source.C121_ripemd128`, `Source.C121_ripemd160`, `Source.C121_ripemd256`, `Source.C121_ripemd320`, `Source.C121_whirlpool`, `Source.C121_hex`, `Source.C121_codegen`, `Source.C121_bytes`
* C122: `Source.C122_ripemd256`, `Source.C122_ripemd320`, `Source.C122_fixed256`, `Source.C122_fixed320`, `Source.C122_whirlpool`, `Source.C122_whirlpool_zero`
* C123: `Source.C123_any`, `Source.C123_copy`, `Source.C123_copies`, `Source.C123_into`
* C124: `Source.C124_lrc_value`, `Source.C124_lrc_next`, `Source.C124_lrc_two`, `Source.C124_lrc_count`, `Source.C124_fletcher_value`, `Source.C124_fletcher_agree`, `Source.C124_fletcher_byte`, `Source.C124_fletcher_panics`
* C125: `Source.C125_step`, `Source.C125_value`, `Source.C125_mask`, `Source.C125_bcc`, `Source.C125_order`, `Source.C125_parity`
* C126: `Source.C126_apart`, `Source.C126_last`, `Source.C126_equal`, `Source.C126_ranges`, `Source.C126_carried`
* C127: `Source.C127_same`, `Source.C127_one`, `Source.C127_empty`
* C128: `Source.C128_values`, `Source.C128_count`, `Source.C128_ranges`, `Source.C128_once`
* C129: `Source.C129_shards`, `Source.C129_made`
* C130: `Source.C130_bcc`, `Source.C130_bcc_replace`, `Source.C130_lrc`, `Source.C130_lrc_replace`, `Source.C130_fletcher`, `Source.C130_fletcher_replace`, `Source.C130_luhn`
* C131: `Source.C131_numbers`, `Source.C131_ordered`, `Source.C131_place`, `Source.C131_lookup`, `Source.C131_added`, `Source.C131_count`

## propext, Quot.sound

* C10: `Net.C10_value`, `Net.C10_fromTo`, `Net.C10_toFrom`
* C11: `Net.C11_order`
* C14: `Net.C14_decides_partial`, `Net.C14_mixed`, `Net.C14_ipv6_equal`
* C23: `Net.C23_false_mask16`
* C28: `Bytes.C28_error_partial`, `Bytes.C28_false`
* C31: `Bytes.C31_false`
* C34: `Checksum.C34_bcc_stream`
* C35: `Checksum.C35_bcc_detects`, `Checksum.C35_bcc_order`
* C37: `Checksum.C37_lrc_not_streaming`
* C38: `Checksum.C38_fletcher16_panics`
* C41: `Checksum.C41_fletcher_unaligned`
* C42: `Checksum.C42_sum_is_bigendian`, `Checksum.C42_reset_is_new`
* C48: `Ripemd.C48_sizes`, `Ripemd.C48_left_constants`, `Ripemd.C48_right_constants`
* C51: `Whirlpool.C51_constants`, `Whirlpool.C51_sbox`, `Whirlpool.C51_entries`
* C52: `Checksum.C52_checksum`
* C53: `Ripemd.C53_ripemd_blocks`, `Whirlpool.C53_whirlpool_blocks`
* C56: `TestHelpers.C56_abbr`, `TestHelpers.C56_length`
* C57: `TestHelpers.C57_split`
* C72: `Net.C72_range_last`, `Net.C72_nil_net`
* C73: `Net.C73_overlap`
* C83: `NetHeap.C83_frame`
* C84: `NetHeap.C84_partial`, `NetHeap.C84_first`
* C85: `Net.C85_not`, `Net.C85_nets`
* C90: `Source.C90_bad_size`
* C97: `Source.C97_abbr`
* C103: `Source.C103_not`, `Source.C103_nets`, `Source.C103_getValue`
* C111: `Checksum.C111_bcc_burst`, `Checksum.C111_bcc_nine`, `Checksum.C111_bcc_two_bits`
* C114: `Whirlpool.C114_sbox`
