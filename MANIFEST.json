{
 "claims": [
  {
   "property": "C01",
   "status": "proved",
   "theorems": [
    "Raki.C01_decode32_total"
   ],
   "note": "For every u32 and both ISAs."
  },
  {
   "property": "C02",
   "status": "proved",
   "theorems": [
    "Raki.C02_decode16_total"
   ],
   "note": "For every u16 and both ISAs."
  },
  {
   "property": "C03",
   "status": "proved",
   "theorems": [
    "Raki.C03_try_from_32",
    "Raki.C03_try_from_16"
   ],
   "note": "Both widths."
  },
  {
   "property": "C04",
   "status": "partial",
   "theorems": [
    "Raki.C04_refuted",
    "Raki.C04_try_from_no_panic_partial"
   ],
   "note": "False of the code: C04_refuted gives the negation. C04_try_from_no_panic_partial proves it for values that fit the selected width; the exact panic set is C43."
  },
  {
   "property": "C05",
   "status": "proved",
   "theorems": [
    "Raki.C05_official32_decoded"
   ],
   "note": ""
  },
  {
   "property": "C06",
   "status": "partial",
   "theorems": [
    "Raki.C06_refuted",
    "Raki.C06_sound32_partial",
    "Raki.C06_strict_is_exact"
   ],
   "note": "False of the code: C06_refuted, with a witness for every non-strict opcode. C06_sound32_partial proves it for all other opcodes and C06_strict_is_exact shows that the listed exceptions are exactly the failures. Exact acceptance is C07."
  },
  {
   "property": "C07",
   "status": "proved",
   "theorems": [
    "Raki.C07_accepts32_exact"
   ],
   "note": ""
  },
  {
   "property": "C08",
   "status": "partial",
   "theorems": [
    "Raki.C08_refuted",
    "Raki.C08_official16_decoded_partial",
    "Raki.C08_add_x0"
   ],
   "note": "False of the code: C08_refuted. C08_official16_decoded_partial proves it for every encoding other than the hints c.add x0, and C08_add_x0 says what those decode to."
  },
  {
   "property": "C09",
   "status": "partial",
   "theorems": [
    "Raki.C09_refuted",
    "Raki.C09_sound16_partial",
    "Raki.C09_strict_is_exact"
   ],
   "note": "False of the code: C09_refuted, with a witness for every non-strict opcode. C09_sound16_partial proves it for all other opcodes. Exact acceptance is C10."
  },
  {
   "property": "C10",
   "status": "proved",
   "theorems": [
    "Raki.C10_accepts16_exact"
   ],
   "note": ""
  },
  {
   "property": "C11",
   "status": "proved",
   "theorems": [
    "Raki.C11_registers32",
    "Raki.C11_register_fields32"
   ],
   "note": ""
  },
  {
   "property": "C12",
   "status": "proved",
   "theorems": [
    "Raki.C12_registers16"
   ],
   "note": ""
  },
  {
   "property": "C13",
   "status": "proved",
   "theorems": [
    "Raki.C13_base_immediates",
    "Raki.C13_base_formats"
   ],
   "note": ""
  },
  {
   "property": "C14",
   "status": "proved",
   "theorems": [
    "Raki.C14_other_immediates"
   ],
   "note": ""
  },
  {
   "property": "C15",
   "status": "proved",
   "theorems": [
    "Raki.C15_compressed_immediates"
   ],
   "note": ""
  },
  {
   "property": "C16",
   "status": "proved",
   "theorems": [
    "Raki.C16_register_range32",
    "Raki.C16_immediate_range32",
    "Raki.C16_register_range16",
    "Raki.C16_immediate_range16"
   ],
   "note": ""
  },
  {
   "property": "C17",
   "status": "proved",
   "theorems": [
    "Raki.C17_reported",
    "Raki.C17_format_shows",
    "Raki.C17_presence32",
    "Raki.C17_presence16"
   ],
   "note": "C17_reported lists the operands of every opcode; C17_format_shows gives agreement with the displayed format, with exactly the two stated exceptions."
  },
  {
   "property": "C18",
   "status": "proved",
   "theorems": [
    "Raki.C18_only_rv64_32",
    "Raki.C18_only_rv64_16"
   ],
   "note": ""
  },
  {
   "property": "C19",
   "status": "proved",
   "theorems": [
    "Raki.C19_rv32_then_rv64",
    "Raki.C19_rv64_err"
   ],
   "note": ""
  },
  {
   "property": "C20",
   "status": "proved",
   "theorems": [
    "Raki.C20_rv32_then_rv64",
    "Raki.C20_jal_addiw",
    "Raki.C20_rv64_then_rv32"
   ],
   "note": ""
  },
  {
   "property": "C21",
   "status": "proved",
   "theorems": [
    "Raki.C21_low_bits_32",
    "Raki.C21_low_bits_16",
    "Raki.C21_never_both"
   ],
   "note": ""
  },
  {
   "property": "C22",
   "status": "proved",
   "theorems": [
    "Raki.C22_no_width_error",
    "Raki.C22_illegal_32",
    "Raki.C22_illegal_16"
   ],
   "note": ""
  },
  {
   "property": "C23",
   "status": "proved",
   "theorems": [
    "Raki.C23_errors32_exact"
   ],
   "note": ""
  },
  {
   "property": "C24",
   "status": "proved",
   "theorems": [
    "Raki.C24_errors16_exact",
    "Raki.C24_errors16"
   ],
   "note": ""
  },
  {
   "property": "C25",
   "status": "proved",
   "theorems": [
    "Raki.C25_decode32_parse_ok",
    "Raki.C25_decode32_parse_err",
    "Raki.C25_decode16_parse_ok",
    "Raki.C25_decode16_parse_err",
    "Raki.C25_decode16_zero"
   ],
   "note": ""
  },
  {
   "property": "C26",
   "status": "proved",
   "theorems": [
    "Raki.C26_parse32",
    "Raki.C26_parse16"
   ],
   "note": ""
  },
  {
   "property": "C27",
   "status": "proved",
   "theorems": [
    "Raki.C27_metadata32",
    "Raki.C27_metadata16"
   ],
   "note": ""
  },
  {
   "property": "C28",
   "status": "proved",
   "theorems": [
    "Raki.C28_encode_decode",
    "Raki.C28_wellformed_iff"
   ],
   "note": "For every well-formed value of every 32-bit opcode; C28_wellformed_iff shows that the well-formed values are exactly those decoded from standard words."
  },
  {
   "property": "C29",
   "status": "partial",
   "theorems": [
    "Raki.C29_refuted",
    "Raki.C29_decode_encode_partial",
    "Raki.C29_injective_partial"
   ],
   "note": "False of the code: C29_refuted (ssamoswap drops aq/rl). C29_decode_encode_partial and C29_injective_partial prove it for every other standard word; the exact ambiguity for all accepted words is C44."
  },
  {
   "property": "C30",
   "status": "proved",
   "theorems": [
    "Raki.C30_encode_decode",
    "Raki.C30_wellformed_iff"
   ],
   "note": "For every well-formed compressed value; C30_wellformed_iff shows that these are exactly the values decoded from standard halfwords."
  },
  {
   "property": "C31",
   "status": "partial",
   "theorems": [
    "Raki.C31_refuted",
    "Raki.C31_decode_encode_partial",
    "Raki.C31_injective_partial"
   ],
   "note": "False of the code: C31_refuted (c.ebreak ignores bits 6..2). C31_decode_encode_partial and C31_injective_partial prove it for every other accepted halfword, reserved ones included; the exact ambiguity is C45."
  },
  {
   "property": "C32",
   "status": "partial",
   "theorems": [
    "Raki.C32_refuted",
    "Raki.C32_no_panic_partial"
   ],
   "note": "False of the code: C32_refuted. C32_no_panic_partial proves it for all opcodes but four; the exact panic set is C49."
  },
  {
   "property": "C33",
   "status": "proved",
   "theorems": [
    "Raki.C33_text",
    "Raki.C33_text_exists",
    "Raki.C33_stores_swapped"
   ],
   "note": "The text is characterised relationally: numerals by their value and absence of leading zeros, not by the formatting functions of the model."
  },
  {
   "property": "C34",
   "status": "partial",
   "theorems": [
    "Raki.C34_distinct",
    "Raki.C34_no_space",
    "Raki.C34_refuted",
    "Raki.C34_manual_partial",
    "Raki.C34_deviations"
   ],
   "note": "False of the code: C34_refuted (mulhsu, fence). Distinctness and absence of spaces hold for all opcodes; C34_manual_partial proves the names for all opcodes but those two, and C34_deviations says what they print."
  },
  {
   "property": "C35",
   "status": "proved",
   "theorems": [
    "Raki.C35_abi_names",
    "Raki.C35_names_distinct",
    "Raki.C35_names_total"
   ],
   "note": ""
  },
  {
   "property": "C36",
   "status": "proved",
   "theorems": [
    "Raki.C36_text_determines",
    "Raki.C36_lossless",
    "Raki.C36_lossy"
   ],
   "note": "Opcode and shown operands are determined by the text (C36_text_determines); the whole value is for opcodes that hide nothing essential (C36_lossless); each of the other opcodes has two values with the same text (C36_lossy)."
  },
  {
   "property": "C37",
   "status": "proved",
   "theorems": [
    "Raki.C37_counters",
    "Raki.C37_m",
    "Raki.C37_system4",
    "Raki.C37_ssamoswap",
    "Raki.C37_compressed_shadow_stack"
   ],
   "note": ""
  },
  {
   "property": "C38",
   "status": "proved",
   "theorems": [
    "Raki.C38_no_dead_opcode"
   ],
   "note": ""
  },
  {
   "property": "C39",
   "status": "proved",
   "theorems": [
    "Raki.C39_same_operands",
    "Raki.C39_expansion_decodes",
    "Raki.C39_expansion_injective"
   ],
   "note": "All halfwords, reserved ones included."
  },
  {
   "property": "C40",
   "status": "proved",
   "theorems": [
    "Raki.C40_program_prefix",
    "Raki.C40_program",
    "Raki.C40_layout_injective"
   ],
   "note": "Programs of any length, by induction."
  },
  {
   "property": "C41",
   "status": "proved",
   "theorems": [
    "Raki.C41_opcode_depends_on_examined",
    "Raki.C41_operands_not_examined"
   ],
   "note": ""
  },
  {
   "property": "C42",
   "status": "partial",
   "theorems": [
    "Raki.C42_fence_i_rejected",
    "Raki.C42_refuted",
    "Raki.C42_advertised32_partial",
    "Raki.C42_advertised16"
   ],
   "note": "False of the code: fence.i is rejected on all its words (C42_fence_i_rejected, C42_refuted). C42_advertised32_partial and C42_advertised16 prove it for everything else."
  },
  {
   "property": "C43",
   "status": "proved",
   "theorems": [
    "Raki.C43_try_from_panics"
   ],
   "note": "The exact panic set of the conversion."
  },
  {
   "property": "C44",
   "status": "proved",
   "theorems": [
    "Raki.C44_same_value_iff"
   ],
   "note": ""
  },
  {
   "property": "C45",
   "status": "proved",
   "theorems": [
    "Raki.C45_same_value_iff"
   ],
   "note": ""
  },
  {
   "property": "C46",
   "status": "proved",
   "theorems": [
    "Raki.C46_sweep_no_panic"
   ],
   "note": ""
  },
  {
   "property": "C47",
   "status": "proved",
   "theorems": [
    "Raki.C47_sweep_ok_iff",
    "Raki.C47_sweep_err_iff",
    "Raki.C47_sweep_length",
    "Raki.C47_sweep_append"
   ],
   "note": ""
  },
  {
   "property": "C48",
   "status": "proved",
   "theorems": [
    "Raki.C48_display_any",
    "Raki.C48_display_any_panics"
   ],
   "note": ""
  },
  {
   "property": "C49",
   "status": "proved",
   "theorems": [
    "Raki.C49_display_panics_iff",
    "Raki.C49_display_panics_witnesses"
   ],
   "note": ""
  },
  {
   "property": "C50",
   "status": "proved",
   "theorems": [
    "Raki.C50_decode32",
    "Raki.C50_decode16",
    "Raki.C50_try_from",
    "Raki.C50_opcode32",
    "Raki.C50_opcode16",
    "Raki.C50_operands32",
    "Raki.C50_operands16"
   ],
   "note": "The decoder is modelled a second time over wrapping arithmetic (lean/Verif/Release); the copy is generated from the model by tools/release.py and related to it by refinement."
  },
  {
   "property": "C51",
   "status": "proved",
   "theorems": [
    "Raki.C51_parsers32",
    "Raki.C51_opcodes32",
    "Raki.C51_parsers16",
    "Raki.C51_parse_imm_isa",
    "Raki.C51_parse_imm_isa_shift",
    "Raki.C51_parse_imm_isa16"
   ],
   "note": "All words, all opcodes of the width."
  },
  {
   "property": "C52",
   "status": "proved",
   "theorems": [
    "Raki.C52_rv64_is_try_from",
    "Raki.C52_program",
    "Raki.C52_no_panic",
    "Raki.C52_rv32_on_rv64"
   ],
   "note": "By induction on the memory; the loop itself is user code, each of its steps is a call of the crate."
  },
  {
   "property": "C53",
   "status": "proved",
   "theorems": [
    "Raki.C53_one_line"
   ],
   "note": "All Instruction values."
  },
  {
   "property": "C54",
   "status": "proved",
   "theorems": [
    "Raki.C54_listing_panics_iff",
    "Raki.C54_listing_determines",
    "Raki.C54_listing_lossless"
   ],
   "note": "Lists of any length, by induction."
  },
  {
   "property": "C55",
   "status": "proved",
   "theorems": [
    "Raki.C55_eq_error",
    "Raki.C55_eq_format",
    "Raki.C55_eq_opcode",
    "Raki.C55_eq_instruction",
    "Raki.C55_debug_text",
    "Raki.C55_debug_injective",
    "Raki.C55_debug_error",
    "Raki.C55_eq_iff_debug"
   ],
   "note": "Model/Derive.lean spells out what the derive attributes generate."
  },
  {
   "property": "C56",
   "status": "partial",
   "theorems": [
    "Raki.C56_assembly_partial",
    "Raki.C56_refuted"
   ],
   "note": "False as stated: C56_refuted gives a counterexample for every opcode outside printsAssembly; C56_assembly_partial proves it for all the others."
  },
  {
   "property": "C57",
   "status": "proved",
   "theorems": [
    "Raki.C57_memory_from_program",
    "Raki.C57_listing_determines_memory",
    "Raki.C57_nonstandard"
   ],
   "note": "By induction on the memory; C57_nonstandard shows the condition is needed."
  },
  {
   "property": "C58",
   "status": "proved",
   "theorems": [
    "Raki.C58_errors_of_u32",
    "Raki.C58_errors_of_u16"
   ],
   "note": "Both directions: every listed error has a witness, no other error is returned."
  },
  {
   "property": "C59",
   "status": "proved",
   "theorems": [
    "Raki.C59_slice32",
    "Raki.C59_slice16",
    "Raki.C59_to_signed_nbit",
    "Raki.C59_to_signed_nbit_panics",
    "Raki.C59_set32",
    "Raki.C59_set16"
   ],
   "note": "All arguments, including those on which the helpers panic."
  },
  {
   "property": "C60",
   "status": "proved",
   "theorems": [
    "Raki.C60_decode32",
    "Raki.C60_decode16",
    "Raki.C60_try_from",
    "Raki.C60_display",
    "Raki.C60_display_to",
    "Raki.C60_parsers32",
    "Raki.C60_parsers16",
    "Raki.C60_format",
    "Raki.C60_name",
    "Raki.C60_extensions",
    "Raki.C60_helpers",
    "Raki.C60_parse_extension",
    "Raki.C60_faithful"
   ],
   "note": "Source.crate is generated from /repo by tools/source.py; Source.call is the evaluator in Source/Eval.lean. Every function of the crate outside tests and derives is covered."
  },
  {
   "property": "C61",
   "status": "proved",
   "theorems": [
    "Raki.C61_decode32_returns",
    "Raki.C61_decode16_returns",
    "Raki.C61_try_from_panics",
    "Raki.C61_display_panics",
    "Raki.C61_builds_agree",
    "Raki.C61_round_trip32",
    "Raki.C61_round_trip16"
   ],
   "note": "Consequences of C60 and of C01, C02, C28, C30, C43, C49, stated on runs of the source text only."
  },
  {
   "property": "C62",
   "status": "proved",
   "theorems": [
    "Raki.C62_listed32",
    "Raki.C62_listed16",
    "Raki.C62_only_listed32",
    "Raki.C62_only_listed16",
    "Raki.C62_no_overlap32",
    "Raki.C62_no_overlap16",
    "Raki.C62_rows32",
    "Raki.C62_rows16"
   ],
   "note": "The listings are a second statement of the specification (Spec/Listing.lean); the theorems quantify over its rows. C62_rows32/16 check the table itself."
  },
  {
   "property": "C63",
   "status": "proved",
   "theorems": [
    "Raki.C63_assemble32",
    "Raki.C63_assemble16",
    "Raki.C63_reassemble32",
    "Raki.C63_reassemble16"
   ],
   "note": "One generic assembler that fills in a row, instead of one formula per format."
  },
  {
   "property": "C64",
   "status": "proved",
   "theorems": [
    "Raki.C64_slice32",
    "Raki.C64_slice16",
    "Raki.C64_set32",
    "Raki.C64_set16",
    "Raki.C64_to_signed_nbit"
   ],
   "note": "All arguments; the companion of C59 for the wrapping build."
  },
  {
   "property": "C65",
   "status": "proved",
   "theorems": [
    "Raki.C65_panics_before_writing",
    "Raki.C65_pieces",
    "Raki.C65_prefix",
    "Raki.C65_to_string",
    "Raki.C65_buffer"
   ],
   "note": "Sinks of any state type; by induction on the pieces. Model/Sink.lean fixes how core cuts the text into pieces; the theorems do not depend on it."
  },
  {
   "property": "C66",
   "status": "proved",
   "theorems": [
    "Raki.C66_pretty_text",
    "Raki.C66_pretty_injective",
    "Raki.C66_same_content"
   ],
   "note": "Model/DebugPretty.lean spells out core's layout of {:#?}."
  },
  {
   "property": "C67",
   "status": "proved",
   "theorems": [
    "Raki.C67_parse",
    "Raki.C67_words",
    "Raki.C67_operators",
    "Raki.C67_numbers",
    "Raki.C67_enums",
    "Raki.C67_opcodes",
    "Raki.C67_fields",
    "Raki.C67_derives",
    "Raki.C67_runs"
   ],
   "note": "The text is finite, so C67_parse is a computation checked by the kernel; the statements about values and runs quantify over all of them. Source/Text.lean is copied from /repo/src by tools/text.py; the lexer, the parser and name resolution are Lean functions (Source/Lexer.lean, Source/Parser.lean)."
  },
  {
   "property": "C68",
   "status": "proved",
   "theorems": [
    "Raki.C68_spelling",
    "Raki.C68_debug_error",
    "Raki.C68_debug_format",
    "Raki.C68_debug_opcode",
    "Raki.C68_debug",
    "Raki.C68_pretty_plain",
    "Raki.C68_pretty_opcode",
    "Raki.C68_pretty",
    "Raki.C68_eq_error",
    "Raki.C68_eq_format",
    "Raki.C68_eq_opcode",
    "Raki.C68_eq",
    "Raki.C68_eq_model",
    "Raki.C68_results",
    "Raki.C68_runs"
   ],
   "note": "Source/Derived.lean states the rule once, on source values; the names come from the table of words that C67 proves spelled as in the files."
  },
  {
   "property": "C69",
   "status": "proved",
   "theorems": [
    "Raki.C69_meets",
    "Raki.C69_unique"
   ],
   "note": "Meets lists the statements of C01-C03, C07, C10-C15, C23-C27, C34, C43, C48, C51, C55, C59, C66 and C71 about arbitrary functions; C69_unique shows that they have exactly one solution."
  },
  {
   "property": "C70",
   "status": "partial",
   "theorems": [
    "Raki.C70_lines",
    "Raki.C70_formats_refuted",
    "Raki.C70_formats_partial",
    "Raki.C70_every_format",
    "Raki.C70_text_partial",
    "Raki.C70_text_refuted"
   ],
   "note": "False as documented: C70_text_refuted gives a decoded instruction for each of the twelve opcodes whose text is not the documented one, C70_formats_refuted the formats of c.nop and csrrwi. C70_text_partial and C70_formats_partial prove it for all the others."
  },
  {
   "property": "C71",
   "status": "proved",
   "theorems": [
    "Raki.C71_register",
    "Raki.C71_immediate",
    "Raki.C71_text",
    "Raki.C71_plain",
    "Raki.C71_injective",
    "Raki.C71_precision_zero",
    "Raki.C71_names",
    "Raki.C71_opcode",
    "Raki.C71_declared"
   ],
   "note": "core's padding, pad and pad_integral and Debug of usize, i32 and bool are part of the trusted base, as core's source is not in /repo; C71_declared derives the instruction's text from its declaration. C71_precision_zero shows that the condition on the precision is needed."
  },
  {
   "property": "C72",
   "status": "proved",
   "theorems": [
    "Raki.C72_assembly",
    "Raki.C72_documentation"
   ],
   "note": "Sharpens C56 and C70 from opcodes to single instructions: for the opcodes not named no text is assembly language, whatever the operands."
  },
  {
   "property": "C73",
   "status": "proved",
   "theorems": [
    "Raki.C73_targets_agree",
    "Raki.C73_fits",
    "Raki.C73_try_from_panics"
   ],
   "note": "About the interpreted source text: `as usize` truncates to the target's width. Integer literals are taken at their value, since rustc rejects those that do not fit."
  },
  {
   "property": "C74",
   "status": "proved",
   "theorems": [
    "Raki.C74_meet",
    "Raki.C74_apart",
    "Raki.C74_reach",
    "Raki.C74_never_meet"
   ],
   "note": "By induction on the memory; the loop itself is user code, each of its steps is a call of the crate."
  },
  {
   "property": "C75",
   "status": "proved",
   "theorems": [
    "Raki.C75_test_32",
    "Raki.C75_test_32_panics",
    "Raki.C75_test_16",
    "Raki.C75_test_16_panics",
    "Raki.C75_one_expectation",
    "Raki.C75_wrappers",
    "Raki.C75_zicfiss_16",
    "Raki.C75_zicfiss_16_any_opcode"
   ],
   "note": "Model/TestHelpers models the helpers; panic messages are left out, as they are built only on the way to a panic. The tests themselves are run on the model in Tests/Crate."
  },
  {
   "property": "C76",
   "status": "proved",
   "theorems": [
    "Raki.C76_parse",
    "Raki.C76_depth",
    "Raki.C76_same",
    "Raki.C76_helpers",
    "Raki.C76_closure",
    "Raki.C76_expectations",
    "Raki.C76_tests",
    "Raki.C76_pass"
   ],
   "note": "C76_parse, C76_tests and C76_pass are about the finite text and are computations checked by the kernel; the other theorems quantify over all arguments and, for C76_depth, over all programs. With 16-bit pointers Rust refuses to compile the tests of lib.rs, because a literal does not fit a usize; the evaluator does not check that."
  },
  {
   "property": "C77",
   "status": "proved",
   "theorems": [
    "Raki.C77_kept",
    "Raki.C77_added",
    "Raki.C77_format",
    "Raki.C77_extension",
    "Raki.C77_manual",
    "Raki.C77_name",
    "Raki.C77_text",
    "Raki.C77_once"
   ],
   "note": "The tables of the older file are copied by tools/oldopcode.py; C77_text shows that they are those of its text."
  },
  {
   "property": "C78",
   "status": "proved",
   "theorems": [
    "Raki.C78_dead",
    "Raki.C78_dead_branches",
    "Raki.C78_live",
    "Raki.C78_dead_iff"
   ],
   "note": "The result is about the syntax trees that C67 reads from the text of the source; replacement code is any expression of the modelled subset of Rust."
  },
  {
   "property": "C79",
   "status": "proved",
   "theorems": [
    "Raki.C79_unseen",
    "Raki.C79_unseen_branches",
    "Raki.C79_seen",
    "Raki.C79_unseen_iff",
    "Raki.C79_gap",
    "Raki.C79_gap_count"
   ],
   "note": "As in C78, code is any expression of the modelled subset of Rust; the tests run as in C76."
  },
  {
   "property": "C80",
   "status": "partial",
   "theorems": [
    "Raki.C80_blocks",
    "Raki.C80_slice_refuted",
    "Raki.C80_set_refuted",
    "Raki.C80_set_iff",
    "Raki.C80_examples_partial"
   ],
   "note": "False: C80_slice_refuted and C80_set_refuted; C80_set_iff says for which lists the documented rule holds. C80_examples_partial proves the examples that are run as doc tests. C80_blocks shows that these are all the code blocks besides those of C70."
  },
  {
   "property": "C81",
   "status": "partial",
   "theorems": [
    "Raki.C81_documented",
    "Raki.C81_fields_partial",
    "Raki.C81_extension_partial",
    "Raki.C81_opcode32_partial",
    "Raki.C81_opcode32_refuted",
    "Raki.C81_opcode16_partial",
    "Raki.C81_opcode16_refuted",
    "Raki.C81_isa_partial",
    "Raki.C81_illegal_partial",
    "Raki.C81_lengths_partial",
    "Raki.C81_lengths_refuted",
    "Raki.C81_reader"
   ],
   "note": "False: C81_lengths_refuted, C81_opcode32_refuted, C81_opcode16_refuted. C81_lengths_partial says when the two exchanged errors are returned; C81_opcode32_partial and C81_opcode16_partial name the opcodes for which InvalidOpcode has another reason; the other C81_..._partial theorems prove the remaining errors. C81_documented shows that the sentences are those of the source text."
  },
  {
   "property": "C82",
   "status": "partial",
   "theorems": [
    "Raki.C82_words_partial",
    "Raki.C82_refuted",
    "Raki.C82_foreign32",
    "Raki.C82_halfwords_partial",
    "Raki.C82_halfwords_refuted",
    "Raki.C82_foreign16",
    "Raki.C82_readme",
    "Raki.C82_groups"
   ],
   "note": "False: C82_refuted and C82_halfwords_refuted. C82_words_partial and C82_halfwords_partial say of each instruction whether it is refused or what it is taken for. C82_foreign32 and C82_foreign16 show that the listed encodings are none of a supported instruction; C82_readme and C82_groups compare README.md with the opcodes."
  },
  {
   "property": "C83",
   "status": "proved",
   "theorems": [
    "Raki.C83_display",
    "Raki.C83_display_attained",
    "Raki.C83_buffer",
    "Raki.C83_any64",
    "Raki.C83_any32",
    "Raki.C83_any_attained",
    "Raki.C83_debug",
    "Raki.C83_debug_attained",
    "Raki.C83_pretty",
    "Raki.C83_pretty_attained"
   ],
   "note": "Each bound comes with an instruction that attains it."
  },
  {
   "property": "C84",
   "status": "proved",
   "theorems": [
    "Raki.C84_decode32",
    "Raki.C84_decode16",
    "Raki.C84_try_from",
    "Raki.C84_display",
    "Raki.C84_parsers32",
    "Raki.C84_parsers16",
    "Raki.C84_set",
    "Raki.C84_examples"
   ],
   "note": "The bounds are computed from the text of the functions by a function that is proved to bound the steps of every run; they are upper bounds, not the least ones (C84_examples shows what some words take). Library functions such as pow, and writing a piece of text, count as one step."
  },
  {
   "property": "C85",
   "status": "proved",
   "theorems": [
    "Raki.C85_sound",
    "Raki.C85_all",
    "Raki.C85_declared",
    "Raki.C85_traits",
    "Raki.C85_expression",
    "Raki.C85_rejects",
    "Raki.C85_accepts"
   ],
   "note": "Proved by induction over the syntax for a type checker that is then run on the crate. C85_expression is the general statement. C85_declared reads the types of the functions and of the fields from the text; C85_traits says that implementations have what their traits ask for."
  },
  {
   "property": "C86",
   "status": "proved",
   "theorems": [
    "Raki.C86_opcodes",
    "Raki.C86_mistaken",
    "Raki.C86_accepted",
    "Raki.C86_wrong",
    "Raki.C86_lost"
   ],
   "note": "Proved by counting, not by enumeration: the words of each opcode are a disjoint union of products of fields, whose sizes multiply. Words of the manuals means the tables in Spec/Isa32 and Spec/Isa16, restricted to the extensions the crate supports."
  },
  {
   "property": "C87",
   "status": "proved",
   "theorems": [
    "Raki.C87_names",
    "Raki.C87_types",
    "Raki.C87_files",
    "Raki.C87_covers",
    "Raki.C87_calls",
    "Raki.C87_examples"
   ],
   "note": "The scoping rules are stated in Lean in Source/Scope (`resolve`); they are this model's account of Rust's rules for the forms that occur in the crate (no glob imports, renaming, macros that define names or generic bounds). The agreement is established by evaluating it in the kernel on the text of all files and then restated per path."
  },
  {
   "property": "C88",
   "status": "proved",
   "theorems": [
    "Raki.C88_names",
    "Raki.C88_functions",
    "Raki.C88_closed"
   ],
   "note": "Functions written in the text; the derived Debug, PartialEq, Clone and Copy are callable too and are treated in Props/Derive, Derived, DebugPretty and Flags."
  },
  {
   "property": "C89",
   "status": "proved",
   "theorems": [
    "Raki.C89_modelled",
    "Raki.C89_builds",
    "Raki.C89_panics",
    "Raki.C89_values"
   ],
   "note": "Joins C85 (types), C88 (what is public), C60 (running the text) and the panic sets C26, C43, C48. Typed values are those of HasT; derived functions are not included."
  },
  {
   "property": "C90",
   "status": "proved",
   "theorems": [
    "Raki.C90_outside",
    "Raki.C90_words",
    "Raki.C90_words_example"
   ],
   "note": "Read from the text of the files, after the names have been resolved as in C87. Macros the crate calls (write!, panic!, unreachable!, matches!, assert_eq!) are those of the language model and are not looked into; methods called with a dot are not names and are covered by C85."
  },
  {
   "property": "C91",
   "status": "proved",
   "theorems": [
    "Raki.C91_sound",
    "Raki.C91_complete",
    "Raki.C91_unambiguous",
    "Raki.C91_crates",
    "Raki.C91_one_crate",
    "Raki.C91_files",
    "Raki.C91_formats"
   ],
   "note": "The grammar covers the Rust the crate is written in, and rejects the rest. Which name a path stands for is computed by the functions the reader uses; C87 compares that with Rust's scoping rules."
  },
  {
   "property": "C92",
   "status": "proved",
   "theorems": [
    "Raki.C92_lines",
    "Raki.C92_unambiguous",
    "Raki.C92_names",
    "Raki.C92_one_program",
    "Raki.C92_files"
   ],
   "note": "Characters outside ASCII are only read inside comments and strings. The rules are written from the Rust Reference."
  },
  {
   "property": "C93",
   "status": "proved",
   "theorems": [
    "Raki.C93_same",
    "Raki.C93_exists",
    "Raki.C93_programs",
    "Raki.C93_decode",
    "Raki.C93_display",
    "Raki.C93_rejects"
   ],
   "note": "C93_programs is the general statement for any program. C93_display adds printing. The rules cover the syntax the crate uses outside its tests."
  },
  {
   "property": "C94",
   "status": "proved",
   "theorems": [
    "Raki.C94_blocks",
    "Raki.C94_read",
    "Raki.C94_crate",
    "Raki.C94_error",
    "Raki.C94_decode",
    "Raki.C94_blind",
    "Raki.C94_program",
    "Raki.C94_program_ends",
    "Raki.C94_runs",
    "Raki.C94_private",
    "Raki.C94_rejects",
    "Raki.C94_scopes",
    "Raki.C94_within",
    "Raki.C94_prints"
   ],
   "note": "A crate is here any behaviour of calls (type, function, arguments). The reader of the examples checks names and imports, not types."
  },
  {
   "property": "C95",
   "status": "proved",
   "theorems": [
    "Raki.C95_programs",
    "Raki.C95_recursive",
    "Raki.C95_single",
    "Raki.C95_crate",
    "Raki.C95_builds",
    "Raki.C95_private"
   ],
   "note": "Programs are in the language of the model of the source (match, closures, let, arithmetic, methods, struct expressions), with no types of their own. A program with recursion is given a size of the stack, of any size. The pointer width of the first build of the crate is that of the program."
  },
  {
   "property": "C96",
   "status": "proved",
   "theorems": [
    "Raki.C96_errors",
    "Raki.C96_rejected",
    "Raki.C96_total",
    "Raki.C96_only",
    "Raki.C96_kept"
   ],
   "note": "The sets of rejected words are given field by field, as disjoint unions of products; their sizes are products."
  },
  {
   "property": "C97",
   "status": "proved",
   "theorems": [
    "Raki.C97_opcodes",
    "Raki.C97_total"
   ],
   "note": "One word is chosen for each instruction, with the ignored bits zero; two chosen words with the same operands are equal, and every accepted word has the operands of a chosen one."
  },
  {
   "property": "C98",
   "status": "proved",
   "theorems": [
    "Raki.C98_opcodes",
    "Raki.C98_total",
    "Raki.C98_apart"
   ],
   "note": "One word is chosen for each text, with the ignored bits and the operands that are not printed zero; the text determines the chosen word, and every printed word has the text of a chosen one."
  },
  {
   "property": "C99",
   "status": "proved",
   "theorems": [
    "Raki.C99_memories",
    "Raki.C99_programs",
    "Raki.C99_listings",
    "Raki.C99_share"
   ],
   "note": "The loop over the memory and the one that prints a line for each instruction are a user's, as in C40 and C54; each of their steps is a call of the crate."
  },
  {
   "property": "C100",
   "status": "proved",
   "theorems": [
    "Raki.C100_both",
    "Raki.C100_same"
   ],
   "note": "The loop over the memory is a user's, as in C40; each of its steps is a call of the crate."
  },
  {
   "property": "C101",
   "status": "proved",
   "theorems": [
    "Raki.C101_errors",
    "Raki.C101_cut",
    "Raki.C101_total"
   ],
   "note": "The loop over the memory is a user's, as in C40; each of its steps is a call of the crate. c and d are tabulated for each error; for InvalidOpcode they leave out the values with the low bits of the other width."
  },
  {
   "property": "C102",
   "status": "proved",
   "theorems": [
    "Raki.C102_words",
    "Raki.C102_halfwords",
    "Raki.C102_product"
   ],
   "note": "C44 and C45 say which words they are; here they are counted."
  },
  {
   "property": "C103",
   "status": "proved",
   "theorems": [
    "Raki.C103_memories",
    "Raki.C103_only"
   ],
   "note": "The loop over the memory is a user's, as in C40; each of its steps is a call of the crate."
  }
 ]
}