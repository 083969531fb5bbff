{
 "claims": [
  {
   "property": "C01",
   "status": "proved",
   "theorems": [
    "Hex.C01_hex_roundtrip"
   ],
   "note": ""
  },
  {
   "property": "C02",
   "status": "proved",
   "theorems": [
    "Hex.C02_hex_canonical",
    "Hex.C02_hex_injective",
    "Hex.C02_hex_alphabet"
   ],
   "note": ""
  },
  {
   "property": "C03",
   "status": "proved",
   "theorems": [
    "Hex.C03_hex_accepts_iff",
    "Hex.C03_hex_value",
    "Hex.C03_hex_reencode"
   ],
   "note": ""
  },
  {
   "property": "C04",
   "status": "proved",
   "theorems": [
    "Hex.C04_hex_leftmost_error",
    "Hex.C04_hex_length_error",
    "Hex.C04_hex_total"
   ],
   "note": ""
  },
  {
   "property": "C05",
   "status": "proved",
   "theorems": [
    "Hex.C05_hex_fast_agrees"
   ],
   "note": ""
  },
  {
   "property": "C06",
   "status": "proved",
   "theorems": [
    "Hex.C06_hex_builds_agree"
   ],
   "note": ""
  },
  {
   "property": "C07",
   "status": "proved",
   "theorems": [
    "Codegen.C07_literal"
   ],
   "note": ""
  },
  {
   "property": "C08",
   "status": "partial",
   "theorems": [
    "Codegen.C08_sections_partial",
    "Codegen.C08_panics",
    "Codegen.C08_false",
    "Codegen.C08_bad_size"
   ],
   "note": "False of the code for some section sizes (the function panics). Negation proved with a witness, exact panic condition proved, exact output proved whenever it does not panic."
  },
  {
   "property": "C09",
   "status": "partial",
   "theorems": [
    "Codegen.C09_sections_partial",
    "Codegen.C09_panics",
    "Codegen.C09_false",
    "Codegen.C09_bad_size"
   ],
   "note": "False of the code for some section sizes (the function panics). Negation proved with a witness, exact panic condition proved, exact output proved whenever it does not panic."
  },
  {
   "property": "C10",
   "status": "proved",
   "theorems": [
    "Net.C10_value",
    "Net.C10_fromTo",
    "Net.C10_toFrom"
   ],
   "note": ""
  },
  {
   "property": "C11",
   "status": "proved",
   "theorems": [
    "Net.C11_total",
    "Net.C11_order"
   ],
   "note": ""
  },
  {
   "property": "C12",
   "status": "proved",
   "theorems": [
    "Net.C12_bits",
    "Net.C12_length"
   ],
   "note": ""
  },
  {
   "property": "C13",
   "status": "proved",
   "theorems": [
    "Net.C13_contiguous",
    "Net.C13_rejects",
    "Net.C13_any_length",
    "Net.C13_inverse"
   ],
   "note": ""
  },
  {
   "property": "C14",
   "status": "partial",
   "theorems": [
    "Net.C14_decides_partial",
    "Net.C14_mixed",
    "Net.C14_equivalence",
    "Net.C14_false",
    "Net.C14_ipv6_equal"
   ],
   "note": "False for non-IPv4 addresses: networks with IPv6 addresses and the same mask are always reported equal. Negation proved; exact for IPv4 addresses; equivalence relation for all networks."
  },
  {
   "property": "C15",
   "status": "partial",
   "theorems": [
    "Net.C15_bounds_partial",
    "Net.C15_false",
    "Net.C15_panics"
   ],
   "note": "False when the address is in 16-byte form (LastIpv4 reads the first four of 16 bytes). Negation proved; exact for 4-byte addresses; exact panic condition."
  },
  {
   "property": "C16",
   "status": "proved",
   "theorems": [
    "Net.C16_exact",
    "Net.C16_runs"
   ],
   "note": ""
  },
  {
   "property": "C17",
   "status": "proved",
   "theorems": [
    "Net.C17_sorted"
   ],
   "note": ""
  },
  {
   "property": "C18",
   "status": "proved",
   "theorems": [
    "Net.C18_shortest",
    "Net.C18_shortest_added",
    "Net.C18_unjoinable"
   ],
   "note": ""
  },
  {
   "property": "C19",
   "status": "proved",
   "theorems": [
    "Net.C19_canonical"
   ],
   "note": ""
  },
  {
   "property": "C20",
   "status": "proved",
   "theorems": [
    "Net.C20_wellformed"
   ],
   "note": ""
  },
  {
   "property": "C21",
   "status": "partial",
   "theorems": [
    "Net.C21_exact_partial",
    "Net.C21_diverges"
   ],
   "note": "False for end 255.255.255.255: AddRange never returns. Divergence proved for all trees and starts; for all other ends termination and exactness proved."
  },
  {
   "property": "C22",
   "status": "proved",
   "theorems": [
    "Net.C22_values",
    "Net.C22_constant"
   ],
   "note": ""
  },
  {
   "property": "C23",
   "status": "partial",
   "theorems": [
    "Net.C23_exact_partial",
    "Net.C23_any",
    "Net.C23_false_mask16",
    "Net.C23_false_ipv6",
    "Net.C23_false_noncontiguous"
   ],
   "note": "False for 16-byte masks, IPv6 networks and non-contiguous masks. Negations proved; exact for IPv4 networks with contiguous 4-byte masks; exact effect for any argument proved."
  },
  {
   "property": "C24",
   "status": "proved",
   "theorems": [
    "Net.C24_monotone",
    "Net.C24_covered"
   ],
   "note": ""
  },
  {
   "property": "C25",
   "status": "proved",
   "theorems": [
    "Bytes.C25_exact",
    "Bytes.C25_carry",
    "Bytes.C25_addAny"
   ],
   "note": ""
  },
  {
   "property": "C26",
   "status": "proved",
   "theorems": [
    "Bytes.C26_exact"
   ],
   "note": ""
  },
  {
   "property": "C27",
   "status": "partial",
   "theorems": [
    "Bytes.C27_first_partial",
    "Bytes.C27_be_wide",
    "Bytes.C27_false"
   ],
   "note": "False for Add64BE..Add512BE: b contributes its last N/8 bytes. Negation proved for every wide big-endian function with the exact behaviour; proved for all little-endian and the narrow big-endian functions."
  },
  {
   "property": "C28",
   "status": "partial",
   "theorems": [
    "Bytes.C28_error_partial",
    "Bytes.C28_false"
   ],
   "note": "False for Add16 and Add32: they panic on every too-short sum. Proved for all other functions."
  },
  {
   "property": "C29",
   "status": "partial",
   "theorems": [
    "Bytes.C29_frame_partial",
    "Bytes.C29_false",
    "Bytes.C29_be_exact"
   ],
   "note": "False for the big-endian functions when both a and sum are longer than N/8. Negation proved for all widths; proved otherwise, for all overlaps; the exact bytes written outside sum[0:N/8] proved."
  },
  {
   "property": "C30",
   "status": "partial",
   "theorems": [
    "Bytes.C30_inPlace_partial",
    "Bytes.C30_double",
    "Bytes.C30_prefix_le",
    "Bytes.C30_prefix_be",
    "Bytes.C30_false"
   ],
   "note": "False when a is a shorter prefix of sum. Negations and exact behaviour proved; a=sum (and a=b=sum) proved."
  },
  {
   "property": "C31",
   "status": "partial",
   "theorems": [
    "Bytes.C31_platform_partial",
    "Bytes.C31_false"
   ],
   "note": "False for Add16/Add32 with a too-short sum (panic instead of error). Proved for all other inputs."
  },
  {
   "property": "C32",
   "status": "proved",
   "theorems": [
    "Bytes.C32_zero"
   ],
   "note": ""
  },
  {
   "property": "C33",
   "status": "proved",
   "theorems": [
    "Bytes.C33_xor",
    "Bytes.C33_twice",
    "Bytes.C33_self",
    "Bytes.C33_total",
    "Bytes.C33_any"
   ],
   "note": ""
  },
  {
   "property": "C34",
   "status": "proved",
   "theorems": [
    "Checksum.C34_bcc_stream"
   ],
   "note": ""
  },
  {
   "property": "C35",
   "status": "proved",
   "theorems": [
    "Checksum.C35_bcc_detects",
    "Checksum.C35_bcc_order"
   ],
   "note": ""
  },
  {
   "property": "C36",
   "status": "proved",
   "theorems": [
    "Checksum.C36_lrc_single"
   ],
   "note": ""
  },
  {
   "property": "C37",
   "status": "partial",
   "theorems": [
    "Checksum.C37_lrc_not_streaming",
    "Checksum.C37_lrc_split_iff_partial",
    "Checksum.C37_lrc_stream_partial",
    "Checksum.C37_lrc_chunks_partial"
   ],
   "note": "False of the code: LRC negates on every Write. Negation proved with a witness; exact condition for a split, single-write streaming and the exact result of any chunking proved."
  },
  {
   "property": "C38",
   "status": "partial",
   "theorems": [
    "Checksum.C38_fletcher16_partial",
    "Checksum.C38_fletcher16_panics",
    "Checksum.C38_fletcher16_overflow",
    "Checksum.C38_fletcher16_false",
    "Checksum.C38_fletcher16_panics_iff",
    "Checksum.C38_fletcher16_exact_partial",
    "Checksum.C38_fletcher16_wrong",
    "Checksum.C38_fletcher16_batches"
   ],
   "note": "False of the code: Write panics for most lengths above 5803 and overflows at 5803. Negations proved, with the exact panic condition and, for writes up to 5803 bytes, the exact condition for a wrong sum; correct for all histories of writes up to 5802 bytes."
  },
  {
   "property": "C39",
   "status": "proved",
   "theorems": [
    "Checksum.C39_fletcher32"
   ],
   "note": ""
  },
  {
   "property": "C40",
   "status": "proved",
   "theorems": [
    "Checksum.C40_fletcher64"
   ],
   "note": ""
  },
  {
   "property": "C41",
   "status": "partial",
   "theorems": [
    "Checksum.C41_fletcher_stream_partial",
    "Checksum.C41_fletcher_unaligned",
    "Checksum.C41_fletcher_chunks_partial",
    "Checksum.C38_fletcher16_partial"
   ],
   "note": "False of the code for splits not at word boundaries. Negation proved; aligned histories proved; exact result of arbitrary chunking proved."
  },
  {
   "property": "C42",
   "status": "proved",
   "theorems": [
    "Checksum.C42_sum_is_bigendian",
    "Checksum.C42_reset_is_new"
   ],
   "note": ""
  },
  {
   "property": "C43",
   "status": "proved",
   "theorems": [
    "Checksum.C43_luhn_valid"
   ],
   "note": ""
  },
  {
   "property": "C44",
   "status": "proved",
   "theorems": [
    "Checksum.C44_luhn_detects",
    "Checksum.C44_luhn_detects_with_digit",
    "Checksum.C44_luhn_misses"
   ],
   "note": ""
  },
  {
   "property": "C45",
   "status": "proved",
   "theorems": [
    "Checksum.C45_fletcher_detects"
   ],
   "note": ""
  },
  {
   "property": "C46",
   "status": "proved",
   "theorems": [
    "Ripemd.C46_stream128",
    "Ripemd.C46_stream160",
    "Ripemd.C46_stream256",
    "Ripemd.C46_stream320"
   ],
   "note": ""
  },
  {
   "property": "C47",
   "status": "proved",
   "theorems": [
    "Ripemd.C47_digest128",
    "Ripemd.C47_digest160",
    "Ripemd.C47_digest256",
    "Ripemd.C47_digest320",
    "Ripemd.C47_compress128",
    "Ripemd.C47_compress160",
    "Ripemd.C47_compress256",
    "Ripemd.C47_compress320"
   ],
   "note": ""
  },
  {
   "property": "C48",
   "status": "proved",
   "theorems": [
    "Ripemd.C48_orders",
    "Ripemd.C48_permutation",
    "Ripemd.C48_sizes",
    "Ripemd.C48_left_constants",
    "Ripemd.C48_right_constants",
    "Ripemd.C48_functions"
   ],
   "note": ""
  },
  {
   "property": "C49",
   "status": "proved",
   "theorems": [
    "Whirlpool.C49_stream"
   ],
   "note": ""
  },
  {
   "property": "C50",
   "status": "proved",
   "theorems": [
    "Whirlpool.C50_digest",
    "Whirlpool.C50_compress",
    "Whirlpool.C50_states"
   ],
   "note": ""
  },
  {
   "property": "C51",
   "status": "proved",
   "theorems": [
    "Whirlpool.C51_circulant",
    "Whirlpool.C51_constants",
    "Whirlpool.C51_sbox",
    "Whirlpool.C51_boxes",
    "Whirlpool.C51_entries"
   ],
   "note": ""
  },
  {
   "property": "C52",
   "status": "proved",
   "theorems": [
    "Checksum.C52_checksum",
    "Ripemd.C52_ripemd",
    "Whirlpool.C52_whirlpool"
   ],
   "note": ""
  },
  {
   "property": "C53",
   "status": "proved",
   "theorems": [
    "Ripemd.C53_ripemd_injective",
    "Ripemd.C53_ripemd_blocks",
    "Ripemd.C53_ripemd128_collision",
    "Ripemd.C53_ripemd160_collision",
    "Ripemd.C53_ripemd256_collision",
    "Ripemd.C53_ripemd320_collision",
    "Whirlpool.C53_whirlpool_injective",
    "Whirlpool.C53_whirlpool_blocks",
    "Whirlpool.C53_whirlpool_collision"
   ],
   "note": ""
  },
  {
   "property": "C54",
   "status": "proved",
   "theorems": [
    "Whirlpool.C54_cipher",
    "Whirlpool.C54_hash"
   ],
   "note": ""
  },
  {
   "property": "C55",
   "status": "proved",
   "theorems": [
    "Endian.C55_detects",
    "Endian.C55_reads",
    "Endian.C55_panics"
   ],
   "note": ""
  },
  {
   "property": "C56",
   "status": "proved",
   "theorems": [
    "TestHelpers.C56_abbr",
    "TestHelpers.C56_length"
   ],
   "note": ""
  },
  {
   "property": "C57",
   "status": "proved",
   "theorems": [
    "TestHelpers.C57_messages",
    "TestHelpers.C57_split",
    "TestHelpers.C57_count",
    "TestHelpers.C57_plain"
   ],
   "note": ""
  },
  {
   "property": "C58",
   "status": "partial",
   "theorems": [
    "Net.C58_false"
   ],
   "note": "False of the code: such an argument adds 0.0.0.0. Negation proved in general (exact effect for every non-IPv4 argument)."
  },
  {
   "property": "C59",
   "status": "partial",
   "theorems": [
    "TestHelpers.C59_inverted_partial",
    "TestHelpers.C59_false",
    "TestHelpers.C59_nul"
   ],
   "note": "False when characters of several bytes precede or follow the difference: character counts are used as byte offsets. Negation proved with a witness; exact when those characters are single bytes; exact report for all strings is C57_messages."
  },
  {
   "property": "C60",
   "status": "proved",
   "theorems": [
    "TestHelpers.C60_any",
    "TestHelpers.C60_hashes"
   ],
   "note": ""
  },
  {
   "property": "C61",
   "status": "partial",
   "theorems": [
    "TestHelpers.C61_any",
    "TestHelpers.C61_hashes_partial",
    "TestHelpers.C61_invalid",
    "TestHelpers.C61_false"
   ],
   "note": "False for input that is not hexadecimal text: it counts as the empty message. Negation proved; exact for hexadecimal input; exact behaviour for any input and any hash object proved."
  },
  {
   "property": "C62",
   "status": "partial",
   "theorems": [
    "Hex.C62_text",
    "Hex.C62_names_partial",
    "Hex.C62_not_ascii",
    "Hex.C62_false",
    "Hex.C62_injective"
   ],
   "note": "False for bytes above 127: the message has the UTF-8 encoding of the byte read as a code point. Negation proved for every such byte; exact for ASCII; exact text for all bytes and injectivity proved."
  },
  {
   "property": "C63",
   "status": "proved",
   "theorems": [
    "MakeTables.C63_var",
    "MakeTables.C63_file"
   ],
   "note": ""
  },
  {
   "property": "C64",
   "status": "partial",
   "theorems": [
    "MakeTables.C64_const_partial",
    "MakeTables.C64_empty",
    "MakeTables.C64_false"
   ],
   "note": "False for the empty table: the text ends in a dangling plus sign. Negation proved for every name; exact for all non-empty tables."
  },
  {
   "property": "C65",
   "status": "proved",
   "theorems": [
    "Net.C65_within",
    "Net.C65_step",
    "Net.C65_determined"
   ],
   "note": ""
  },
  {
   "property": "C66",
   "status": "proved",
   "theorems": [
    "Net.C66_greedy",
    "Net.C66_split"
   ],
   "note": ""
  },
  {
   "property": "C67",
   "status": "proved",
   "theorems": [
    "Checksum.C67_residue",
    "Checksum.C67_lrc_detects",
    "Checksum.C67_lrc_order"
   ],
   "note": ""
  },
  {
   "property": "C68",
   "status": "proved",
   "theorems": [
    "Checksum.C68_fletcher_swap"
   ],
   "note": ""
  },
  {
   "property": "C69",
   "status": "proved",
   "theorems": [
    "Checksum.C69_luhn_twins"
   ],
   "note": ""
  },
  {
   "property": "C70",
   "status": "proved",
   "theorems": [
    "Ripemd.C70_ripemd",
    "Whirlpool.C70_whirlpool"
   ],
   "note": ""
  },
  {
   "property": "C71",
   "status": "proved",
   "theorems": [
    "Ripemd.C71_ripemd256",
    "Ripemd.C71_ripemd320",
    "Ripemd.C71_ripemd128",
    "Ripemd.C71_ripemd160"
   ],
   "note": ""
  },
  {
   "property": "C72",
   "status": "proved",
   "theorems": [
    "Net.C72_within",
    "Net.C72_step",
    "Net.C72_determined",
    "Net.C72_panic",
    "Net.C72_range",
    "Net.C72_range_last",
    "Net.C72_pure",
    "Net.C72_nil",
    "Net.C72_nil_net"
   ],
   "note": ""
  },
  {
   "property": "C73",
   "status": "proved",
   "theorems": [
    "Net.C73_order",
    "Net.C73_overlap"
   ],
   "note": ""
  },
  {
   "property": "C74",
   "status": "proved",
   "theorems": [
    "Net.C74_length"
   ],
   "note": ""
  },
  {
   "property": "C75",
   "status": "proved",
   "theorems": [
    "Checksum.C75_two_words",
    "Checksum.C75_neighbours",
    "Checksum.C75_two_bits"
   ],
   "note": ""
  },
  {
   "property": "C76",
   "status": "proved",
   "theorems": [
    "Hex.C76_order",
    "Hex.C76_append",
    "Hex.C76_pieces",
    "Hex.C76_case"
   ],
   "note": ""
  },
  {
   "property": "C77",
   "status": "proved",
   "theorems": [
    "HashHeap.C77_lone",
    "HashHeap.C77_behaves",
    "HashHeap.C77_sum",
    "HashHeap.C77_readonly",
    "HashHeap.C77_persist",
    "HashHeap.C77_overwrites"
   ],
   "note": ""
  },
  {
   "property": "C78",
   "status": "proved",
   "theorems": [
    "Whirlpool.C78_lookup",
    "Whirlpool.C78_full",
    "Whirlpool.C78_four",
    "Whirlpool.C78_ten",
    "Whirlpool.C78_sbox"
   ],
   "note": ""
  },
  {
   "property": "C79",
   "status": "proved",
   "theorems": [
    "Bytes.C79_le",
    "Bytes.C79_be",
    "Bytes.C79_le_unique",
    "Bytes.C79_be_unique",
    "Bytes.C79_le_ahead",
    "Bytes.C79_be_ahead"
   ],
   "note": ""
  },
  {
   "property": "C80",
   "status": "partial",
   "theorems": [
    "Bytes.C80_le_exact",
    "Bytes.C80_be_exact",
    "Bytes.C80_le_partial",
    "Bytes.C80_be_partial",
    "Bytes.C80_not"
   ],
   "note": "False of the code: sum is overwritten with a first, so the result is 2a. Negations proved for both byte orders; exact result, and that it is right exactly when the operands were equal, proved."
  },
  {
   "property": "C81",
   "status": "partial",
   "theorems": [
    "Bytes.C81_a_partial",
    "Bytes.C81_b_partial",
    "Bytes.C81_not"
   ],
   "note": "False of the code: big-endian operands are padded in front. Negation proved; when one operand has full length, the documented result is left exactly when the other has full length or is zero."
  },
  {
   "property": "C82",
   "status": "proved",
   "theorems": [
    "Bytes.C82_8",
    "Bytes.C82_le",
    "Bytes.C82_be",
    "Bytes.C82_carry"
   ],
   "note": ""
  },
  {
   "property": "C83",
   "status": "proved",
   "theorems": [
    "NetHeap.C83_tree",
    "NetHeap.C83_list",
    "NetHeap.C83_exact",
    "NetHeap.C83_frame",
    "NetHeap.C83_fresh",
    "NetHeap.C83_stable",
    "NetHeap.C83_returns"
   ],
   "note": ""
  },
  {
   "property": "C84",
   "status": "partial",
   "theorems": [
    "NetHeap.C84_partial",
    "NetHeap.C84_first",
    "NetHeap.C84_not"
   ],
   "note": "False for FirstIpv4, which returns the slice of the network itself; negation and exact effect of a store proved. Proved for the others."
  },
  {
   "property": "C85",
   "status": "partial",
   "theorems": [
    "Net.C85_partial",
    "Net.C85_not",
    "Net.C85_nil",
    "Net.C85_nets"
   ],
   "note": "False before the first successful addition: ListCidr of the zero Tree panics. Negation proved; otherwise the simulation is proved for all sequences of calls."
  },
  {
   "property": "C86",
   "status": "proved",
   "theorems": [
    "Fletcher.C86_exact",
    "Fletcher.C86_lost",
    "Fletcher.C86_batch",
    "Fletcher.C86_right"
   ],
   "note": ""
  },
  {
   "property": "C87",
   "status": "proved",
   "theorems": [
    "Source.C87_bcc",
    "Source.C87_lrc",
    "Source.C87_fletcher16",
    "Source.C87_fletcher32",
    "Source.C87_fletcher64",
    "Source.C87_luhn"
   ],
   "note": ""
  },
  {
   "property": "C88",
   "status": "proved",
   "theorems": [
    "Source.C88_bcc",
    "Source.C88_lrc",
    "Source.C88_fletcher16",
    "Source.C88_fletcher",
    "Source.C88_luhn"
   ],
   "note": ""
  },
  {
   "property": "C89",
   "status": "proved",
   "theorems": [
    "Source.C89_encode",
    "Source.C89_decode",
    "Source.C89_invalid",
    "Source.C89_odd",
    "Source.C89_error"
   ],
   "note": ""
  },
  {
   "property": "C90",
   "status": "proved",
   "theorems": [
    "Source.C90_string",
    "Source.C90_sections",
    "Source.C90_panics",
    "Source.C90_bad_size"
   ],
   "note": ""
  },
  {
   "property": "C91",
   "status": "proved",
   "theorems": [
    "Source.C91_model",
    "Source.C91_model_add",
    "Source.C91_layout",
    "Source.C91_zero",
    "Source.C91_xor",
    "Source.C91_add_le",
    "Source.C91_add_be",
    "Source.C91_short"
   ],
   "note": ""
  },
  {
   "property": "C92",
   "status": "proved",
   "theorems": [
    "Source.C92_functions",
    "Source.C92_networks",
    "Source.C92_step",
    "Source.C92_session",
    "Source.C92_list",
    "Source.C92_returns",
    "Source.C92_numbers",
    "Source.C92_masks",
    "Source.C92_equal",
    "Source.C92_bounds"
   ],
   "note": ""
  },
  {
   "property": "C93",
   "status": "proved",
   "theorems": [
    "Source.C93_ripemd128",
    "Source.C93_ripemd160",
    "Source.C93_ripemd256",
    "Source.C93_ripemd320"
   ],
   "note": ""
  },
  {
   "property": "C94",
   "status": "proved",
   "theorems": [
    "Source.C94_ripemd128",
    "Source.C94_ripemd160",
    "Source.C94_ripemd256",
    "Source.C94_ripemd320"
   ],
   "note": ""
  },
  {
   "property": "C95",
   "status": "proved",
   "theorems": [
    "Source.C95_whirlpool"
   ],
   "note": ""
  },
  {
   "property": "C96",
   "status": "proved",
   "theorems": [
    "Source.C96_whirlpool",
    "Source.C96_digest"
   ],
   "note": ""
  },
  {
   "property": "C97",
   "status": "proved",
   "theorems": [
    "Source.C97_abbr",
    "Source.C97_title",
    "Source.C97_match",
    "Source.C97_silent"
   ],
   "note": ""
  },
  {
   "property": "C98",
   "status": "proved",
   "theorems": [
    "Source.C98_ripemd",
    "Source.C98_whirlpool",
    "Source.C98_checksum",
    "Source.C98_fletcher16_panics",
    "Source.C98_passes"
   ],
   "note": ""
  },
  {
   "property": "C99",
   "status": "proved",
   "theorems": [
    "Source.C99_circulant",
    "Source.C99_constants",
    "Source.C99_start"
   ],
   "note": ""
  },
  {
   "property": "C100",
   "status": "proved",
   "theorems": [
    "Source.C100_main"
   ],
   "note": ""
  },
  {
   "property": "C101",
   "status": "proved",
   "theorems": [
    "Source.C101_var",
    "Source.C101_const"
   ],
   "note": ""
  },
  {
   "property": "C102",
   "status": "proved",
   "theorems": [
    "Source.C102_model",
    "Source.C102_detects",
    "Source.C102_panics",
    "Source.C102_reads",
    "Source.C102_platform"
   ],
   "note": ""
  },
  {
   "property": "C103",
   "status": "partial",
   "theorems": [
    "Source.C103_zero_partial",
    "Source.C103_ends",
    "Source.C103_not",
    "Source.C103_nil",
    "Source.C103_nets",
    "Source.C103_getValue"
   ],
   "note": "False before the first successful addition, as C85: ListCidr of the zero Tree panics. Negation proved; otherwise proved for all uses of the tree; nil pointers and getValue proved."
  },
  {
   "property": "C104",
   "status": "proved",
   "theorems": [
    "Source.C104_each",
    "Source.C104_distinct",
    "Source.C104_goes",
    "Source.C104_new",
    "Source.C104_stream"
   ],
   "note": ""
  },
  {
   "property": "C105",
   "status": "proved",
   "theorems": [
    "Source.C105_each",
    "Source.C105_distinct",
    "Source.C105_list",
    "Source.C105_same",
    "Source.C105_goes"
   ],
   "note": ""
  },
  {
   "property": "C106",
   "status": "proved",
   "theorems": [
    "Source.C106_split",
    "Source.C106_hash",
    "Source.C106_tree",
    "Source.C106_distinct",
    "Source.C106_goes",
    "Source.C106_own",
    "Source.C106_program",
    "Source.C106_start"
   ],
   "note": ""
  },
  {
   "property": "C107",
   "status": "proved",
   "theorems": [
    "Net.C107_nodes",
    "Net.C107_height",
    "Net.C107_call",
    "Net.C107_calls"
   ],
   "note": ""
  },
  {
   "property": "C108",
   "status": "proved",
   "theorems": [
    "Source.C108_adds",
    "Source.C108_lists",
    "Source.C108_session"
   ],
   "note": ""
  },
  {
   "property": "C109",
   "status": "proved",
   "theorems": [
    "Source.C109_lex",
    "Source.C109_tokens",
    "Source.C109_parse",
    "Source.C109_repository"
   ],
   "note": ""
  },
  {
   "property": "C110",
   "status": "proved",
   "theorems": [
    "Source.C110_once",
    "Source.C110_function",
    "Source.C110_canonical",
    "Source.C110_order",
    "Source.C110_any",
    "Source.C110_length",
    "Source.C110_more",
    "Source.C110_values",
    "Source.C110_not_ipv4",
    "Source.C110_range"
   ],
   "note": ""
  },
  {
   "property": "C111",
   "status": "proved",
   "theorems": [
    "Checksum.C111_bcc_odd",
    "Checksum.C111_bcc_burst",
    "Checksum.C111_bcc_nine",
    "Checksum.C111_bcc_two_bits",
    "Checksum.C111_lrc_two_bits",
    "Checksum.C111_luhn_two",
    "Checksum.C111_luhn_transposition",
    "Checksum.C111_luhn_phonetic"
   ],
   "note": ""
  },
  {
   "property": "C112",
   "status": "proved",
   "theorems": [
    "Source.C112_bcc_value",
    "Source.C112_bcc_byte",
    "Source.C112_bcc_order",
    "Source.C112_bcc_odd",
    "Source.C112_bcc_burst",
    "Source.C112_bcc_two_bits",
    "Source.C112_bcc_residue",
    "Source.C112_lrc_value",
    "Source.C112_lrc_byte",
    "Source.C112_lrc_order",
    "Source.C112_lrc_two_bits",
    "Source.C112_fletcher_value",
    "Source.C112_fletcher_two_words",
    "Source.C112_fletcher_neighbours",
    "Source.C112_fletcher_swap",
    "Source.C112_fletcher_two_bits",
    "Source.C112_luhn_digit",
    "Source.C112_luhn_two",
    "Source.C112_luhn_transposition",
    "Source.C112_luhn_twins",
    "Source.C112_luhn_phonetic"
   ],
   "note": ""
  },
  {
   "property": "C113",
   "status": "proved",
   "theorems": [
    "Source.C113_ripemd",
    "Source.C113_ripemd_collision",
    "Source.C113_ripemd_extension",
    "Source.C113_whirlpool",
    "Source.C113_whirlpool_collision",
    "Source.C113_whirlpool_extension"
   ],
   "note": ""
  },
  {
   "property": "C114",
   "status": "proved",
   "theorems": [
    "Whirlpool.C114_sbox",
    "Whirlpool.C114_lookup"
   ],
   "note": ""
  },
  {
   "property": "C115",
   "status": "proved",
   "theorems": [
    "Source.C115_step",
    "Source.C115_sum",
    "Source.C115_counter",
    "Source.C115_period",
    "Source.C115_order",
    "Source.C115_endian"
   ],
   "note": ""
  },
  {
   "property": "C116",
   "status": "proved",
   "theorems": [
    "Whirlpool.C116_polynomial",
    "Whirlpool.C116_degree",
    "Whirlpool.C116_fixed"
   ],
   "note": ""
  },
  {
   "property": "C117",
   "status": "proved",
   "theorems": [
    "Source.C117_quoted",
    "Source.C117_sum",
    "Source.C117_body",
    "Source.C117_string",
    "Source.C117_sections",
    "Source.C117_one"
   ],
   "note": ""
  },
  {
   "property": "C118",
   "status": "proved",
   "theorems": [
    "Source.C118_main",
    "Source.C118_var",
    "Source.C118_const",
    "Source.C118_one"
   ],
   "note": ""
  },
  {
   "property": "C119",
   "status": "proved",
   "theorems": [
    "Source.C119_total",
    "Source.C119_agree",
    "Source.C119_there",
    "Source.C119_back",
    "Source.C119_order",
    "Source.C119_case",
    "Source.C119_wrong",
    "Source.C119_lost"
   ],
   "note": ""
  },
  {
   "property": "C120",
   "status": "proved",
   "theorems": [
    "Source.C120_bcc",
    "Source.C120_lrc",
    "Source.C120_missed",
    "Source.C120_luhn",
    "Source.C120_fletcher_never",
    "Source.C120_fletcher"
   ],
   "note": ""
  },
  {
   "property": "C121",
   "status": "proved",
   "theorems": [
    "Source.C121_bcc",
    "Source.C121_lrc",
    "Source.C121_fletcher16",
    "Source.C121_fletcher32",
    "Source.C121_fletcher64",
    "Source.C121_luhn",
    "Source.C121_ripemd128",
    "Source.C121_ripemd160",
    "Source.C121_ripemd256",
    "Source.C121_ripemd320",
    "Source.C121_whirlpool",
    "Source.C121_hex",
    "Source.C121_codegen",
    "Source.C121_bytes"
   ],
   "note": ""
  },
  {
   "property": "C122",
   "status": "proved",
   "theorems": [
    "Source.C122_ripemd256",
    "Source.C122_ripemd320",
    "Source.C122_fixed256",
    "Source.C122_fixed320",
    "Source.C122_whirlpool",
    "Source.C122_whirlpool_zero"
   ],
   "note": ""
  },
  {
   "property": "C123",
   "status": "proved",
   "theorems": [
    "Source.C123_any",
    "Source.C123_copy",
    "Source.C123_copies",
    "Source.C123_into"
   ],
   "note": ""
  },
  {
   "property": "C124",
   "status": "proved",
   "theorems": [
    "Source.C124_lrc_value",
    "Source.C124_lrc_next",
    "Source.C124_lrc_two",
    "Source.C124_lrc_count",
    "Source.C124_fletcher_value",
    "Source.C124_fletcher_agree",
    "Source.C124_fletcher_byte",
    "Source.C124_fletcher_panics"
   ],
   "note": ""
  },
  {
   "property": "C125",
   "status": "proved",
   "theorems": [
    "Source.C125_step",
    "Source.C125_value",
    "Source.C125_mask",
    "Source.C125_bcc",
    "Source.C125_order",
    "Source.C125_parity"
   ],
   "note": ""
  },
  {
   "property": "C126",
   "status": "proved",
   "theorems": [
    "Source.C126_apart",
    "Source.C126_last",
    "Source.C126_equal",
    "Source.C126_ranges",
    "Source.C126_carried"
   ],
   "note": ""
  },
  {
   "property": "C127",
   "status": "proved",
   "theorems": [
    "Source.C127_same",
    "Source.C127_one",
    "Source.C127_empty"
   ],
   "note": ""
  },
  {
   "property": "C128",
   "status": "proved",
   "theorems": [
    "Source.C128_values",
    "Source.C128_count",
    "Source.C128_ranges",
    "Source.C128_once"
   ],
   "note": ""
  },
  {
   "property": "C129",
   "status": "proved",
   "theorems": [
    "Source.C129_shards",
    "Source.C129_made"
   ],
   "note": ""
  },
  {
   "property": "C130",
   "status": "proved",
   "theorems": [
    "Source.C130_bcc",
    "Source.C130_bcc_replace",
    "Source.C130_lrc",
    "Source.C130_lrc_replace",
    "Source.C130_fletcher",
    "Source.C130_fletcher_replace",
    "Source.C130_luhn"
   ],
   "note": ""
  },
  {
   "property": "C131",
   "status": "proved",
   "theorems": [
    "Source.C131_numbers",
    "Source.C131_ordered",
    "Source.C131_place",
    "Source.C131_lookup",
    "Source.C131_added",
    "Source.C131_count"
   ],
   "note": ""
  }
 ]
}