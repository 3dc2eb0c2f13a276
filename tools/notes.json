{
 "C01": {
  "note": "For every u32 and both ISAs."
 },
 "C02": {
  "note": "For every u16 and both ISAs."
 },
 "C03": {
  "note": "Both widths."
 },
 "C04": {
  "status": "partial",
  "note": "False of the code: C04_refuted gives the negation. C04_try_from_no_panic_partial proves it for values that fit the selected width; the exact panic set is C43."
 },
 "C06": {
  "status": "partial",
  "note": "False of the code: C06_refuted, with a witness for every non-strict opcode. C06_sound32_partial proves it for all other opcodes and C06_strict_is_exact shows that the listed exceptions are exactly the failures. Exact acceptance is C07."
 },
 "C08": {
  "status": "partial",
  "note": "False of the code: C08_refuted. C08_official16_decoded_partial proves it for every encoding other than the hints c.add x0, and C08_add_x0 says what those decode to."
 },
 "C09": {
  "status": "partial",
  "note": "False of the code: C09_refuted, with a witness for every non-strict opcode. C09_sound16_partial proves it for all other opcodes. Exact acceptance is C10."
 },
 "C17": {
  "note": "C17_reported lists the operands of every opcode; C17_format_shows gives agreement with the displayed format, with exactly the two stated exceptions."
 },
 "C42": {
  "status": "partial",
  "note": "False of the code: fence.i is rejected on all its words (C42_fence_i_rejected, C42_refuted). C42_advertised32_partial and C42_advertised16 prove it for everything else."
 },
 "C43": {
  "note": "The exact panic set of the conversion."
 },
 "C29": {
  "status": "partial",
  "note": "False of the code: C29_refuted (ssamoswap drops aq/rl). C29_decode_encode_partial and C29_injective_partial prove it for every other standard word; the exact ambiguity for all accepted words is C44."
 },
 "C31": {
  "status": "partial",
  "note": "False of the code: C31_refuted (c.ebreak ignores bits 6..2). C31_decode_encode_partial and C31_injective_partial prove it for every other accepted halfword, reserved ones included; the exact ambiguity is C45."
 },
 "C28": {
  "note": "For every well-formed value of every 32-bit opcode; C28_wellformed_iff shows that the well-formed values are exactly those decoded from standard words."
 },
 "C30": {
  "note": "For every well-formed compressed value; C30_wellformed_iff shows that these are exactly the values decoded from standard halfwords."
 },
 "C40": {
  "note": "Programs of any length, by induction."
 },
 "C32": {
  "status": "partial",
  "note": "False of the code: C32_refuted. C32_no_panic_partial proves it for all opcodes but four; the exact panic set is C49."
 },
 "C34": {
  "status": "partial",
  "note": "False of the code: C34_refuted (mulhsu, fence). Distinctness and absence of spaces hold for all opcodes; C34_manual_partial proves the names for all opcodes but those two, and C34_deviations says what they print."
 },
 "C33": {
  "note": "The text is characterised relationally: numerals by their value and absence of leading zeros, not by the formatting functions of the model."
 },
 "C36": {
  "note": "Opcode and shown operands are determined by the text (C36_text_determines); the whole value is for opcodes that hide nothing essential (C36_lossless); each of the other opcodes has two values with the same text (C36_lossy)."
 },
 "C39": {
  "note": "All halfwords, reserved ones included."
 },
 "C50": {
  "note": "The decoder is modelled a second time over wrapping arithmetic (lean/Verif/Release); the copy is generated from the model by tools/release.py and related to it by refinement."
 },
 "C51": {
  "note": "All words, all opcodes of the width."
 },
 "C52": {
  "note": "By induction on the memory; the loop itself is user code, each of its steps is a call of the crate."
 },
 "C53": {
  "note": "All Instruction values."
 },
 "C54": {
  "note": "Lists of any length, by induction."
 },
 "C55": {
  "note": "Model/Derive.lean spells out what the derive attributes generate."
 },
 "C56": {
  "status": "partial",
  "note": "False as stated: C56_refuted gives a counterexample for every opcode outside printsAssembly; C56_assembly_partial proves it for all the others."
 },
 "C57": {
  "note": "By induction on the memory; C57_nonstandard shows the condition is needed."
 },
 "C58": {
  "note": "Both directions: every listed error has a witness, no other error is returned."
 },
 "C59": {
  "note": "All arguments, including those on which the helpers panic."
 },
 "C60": {
  "note": "Source.crate is generated from /repo by tools/source.py; Source.call is the evaluator in Source/Eval.lean. Every function of the crate outside tests and derives is covered."
 },
 "C61": {
  "note": "Consequences of C60 and of C01, C02, C28, C30, C43, C49, stated on runs of the source text only."
 },
 "C62": {
  "note": "The listings are a second statement of the specification (Spec/Listing.lean); the theorems quantify over its rows. C62_rows32/16 check the table itself."
 },
 "C63": {
  "note": "One generic assembler that fills in a row, instead of one formula per format."
 },
 "C64": {
  "note": "All arguments; the companion of C59 for the wrapping build."
 },
 "C65": {
  "note": "Sinks of any state type; by induction on the pieces. Model/Sink.lean fixes how core cuts the text into pieces; the theorems do not depend on it."
 },
 "C66": {
  "note": "Model/DebugPretty.lean spells out core's layout of {:#?}."
 },
 "C67": {
  "note": "The text is finite, so C67_parse is a computation checked by the kernel; the statements about values and runs quantify over all of them. Source/Text.lean is copied from /repo/src by tools/text.py; the lexer, the parser and name resolution are Lean functions (Source/Lexer.lean, Source/Parser.lean)."
 },
 "C68": {
  "note": "Source/Derived.lean states the rule once, on source values; the names come from the table of words that C67 proves spelled as in the files."
 },
 "C69": {
  "note": "Meets lists the statements of C01-C03, C07, C10-C15, C23-C27, C34, C43, C48, C51, C55, C59, C66 and C71 about arbitrary functions; C69_unique shows that they have exactly one solution."
 },
 "C70": {
  "status": "partial",
  "note": "False as documented: C70_text_refuted gives a decoded instruction for each of the twelve opcodes whose text is not the documented one, C70_formats_refuted the formats of c.nop and csrrwi. C70_text_partial and C70_formats_partial prove it for all the others."
 },
 "C71": {
  "note": "core's padding, pad and pad_integral and Debug of usize, i32 and bool are part of the trusted base, as core's source is not in /repo; C71_declared derives the instruction's text from its declaration. C71_precision_zero shows that the condition on the precision is needed."
 },
 "C72": {
  "note": "Sharpens C56 and C70 from opcodes to single instructions: for the opcodes not named no text is assembly language, whatever the operands."
 },
 "C73": {
  "note": "About the interpreted source text: `as usize` truncates to the target's width. Integer literals are taken at their value, since rustc rejects those that do not fit."
 },
 "C74": {
  "note": "By induction on the memory; the loop itself is user code, each of its steps is a call of the crate."
 },
 "C75": {
  "note": "Model/TestHelpers models the helpers; panic messages are left out, as they are built only on the way to a panic. The tests themselves are run on the model in Tests/Crate."
 },
 "C76": {
  "note": "C76_parse, C76_tests and C76_pass are about the finite text and are computations checked by the kernel; the other theorems quantify over all arguments and, for C76_depth, over all programs. With 16-bit pointers Rust refuses to compile the tests of lib.rs, because a literal does not fit a usize; the evaluator does not check that."
 },
 "C77": {
  "note": "The tables of the older file are copied by tools/oldopcode.py; C77_text shows that they are those of its text."
 },
 "C78": {
  "note": "The result is about the syntax trees that C67 reads from the text of the source; replacement code is any expression of the modelled subset of Rust."
 },
 "C79": {
  "note": "As in C78, code is any expression of the modelled subset of Rust; the tests run as in C76."
 },
 "C80": {
  "note": "False: C80_slice_refuted and C80_set_refuted; C80_set_iff says for which lists the documented rule holds. C80_examples_partial proves the examples that are run as doc tests. C80_blocks shows that these are all the code blocks besides those of C70.",
  "status": "partial"
 },
 "C81": {
  "note": "False: C81_lengths_refuted, C81_opcode32_refuted, C81_opcode16_refuted. C81_lengths_partial says when the two exchanged errors are returned; C81_opcode32_partial and C81_opcode16_partial name the opcodes for which InvalidOpcode has another reason; the other C81_..._partial theorems prove the remaining errors. C81_documented shows that the sentences are those of the source text.",
  "status": "partial"
 },
 "C82": {
  "note": "False: C82_refuted and C82_halfwords_refuted. C82_words_partial and C82_halfwords_partial say of each instruction whether it is refused or what it is taken for. C82_foreign32 and C82_foreign16 show that the listed encodings are none of a supported instruction; C82_readme and C82_groups compare README.md with the opcodes.",
  "status": "partial"
 },
 "C83": {
  "note": "Each bound comes with an instruction that attains it."
 },
 "C84": {
  "note": "The bounds are computed from the text of the functions by a function that is proved to bound the steps of every run; they are upper bounds, not the least ones (C84_examples shows what some words take). Library functions such as pow, and writing a piece of text, count as one step."
 },
 "C85": {
  "note": "Proved by induction over the syntax for a type checker that is then run on the crate. C85_expression is the general statement. C85_declared reads the types of the functions and of the fields from the text; C85_traits says that implementations have what their traits ask for."
 },
 "C86": {
  "note": "Proved by counting, not by enumeration: the words of each opcode are a disjoint union of products of fields, whose sizes multiply. Words of the manuals means the tables in Spec/Isa32 and Spec/Isa16, restricted to the extensions the crate supports."
 },
 "C87": {
  "note": "The scoping rules are stated in Lean in Source/Scope (`resolve`); they are this model's account of Rust's rules for the forms that occur in the crate (no glob imports, renaming, macros that define names or generic bounds). The agreement is established by evaluating it in the kernel on the text of all files and then restated per path."
 },
 "C88": {
  "note": "Functions written in the text; the derived Debug, PartialEq, Clone and Copy are callable too and are treated in Props/Derive, Derived, DebugPretty and Flags."
 },
 "C89": {
  "note": "Joins C85 (types), C88 (what is public), C60 (running the text) and the panic sets C26, C43, C48. Typed values are those of HasT; derived functions are not included."
 },
 "C90": {
  "note": "Read from the text of the files, after the names have been resolved as in C87. Macros the crate calls (write!, panic!, unreachable!, matches!, assert_eq!) are those of the language model and are not looked into; methods called with a dot are not names and are covered by C85."
 },
 "C91": {
  "note": "The grammar covers the Rust the crate is written in, and rejects the rest. Which name a path stands for is computed by the functions the reader uses; C87 compares that with Rust's scoping rules."
 },
 "C92": {
  "note": "Characters outside ASCII are only read inside comments and strings. The rules are written from the Rust Reference."
 },
 "C93": {
  "note": "C93_programs is the general statement for any program. C93_display adds printing. The rules cover the syntax the crate uses outside its tests."
 },
 "C94": {
  "note": "A crate is here any behaviour of calls (type, function, arguments). The reader of the examples checks names and imports, not types."
 },
 "C95": {
  "note": "Programs are in the language of the model of the source (match, closures, let, arithmetic, methods, struct expressions), with no types of their own. A program with recursion is given a size of the stack, of any size. The pointer width of the first build of the crate is that of the program."
 },
 "C96": {
  "note": "The sets of rejected words are given field by field, as disjoint unions of products; their sizes are products."
 },
 "C97": {
  "note": "One word is chosen for each instruction, with the ignored bits zero; two chosen words with the same operands are equal, and every accepted word has the operands of a chosen one."
 },
 "C98": {
  "note": "One word is chosen for each text, with the ignored bits and the operands that are not printed zero; the text determines the chosen word, and every printed word has the text of a chosen one."
 },
 "C99": {
  "note": "The loop over the memory and the one that prints a line for each instruction are a user's, as in C40 and C54; each of their steps is a call of the crate."
 },
 "C100": {
  "note": "The loop over the memory is a user's, as in C40; each of its steps is a call of the crate."
 },
 "C101": {
  "note": "The loop over the memory is a user's, as in C40; each of its steps is a call of the crate. c and d are tabulated for each error; for InvalidOpcode they leave out the values with the low bits of the other width."
 },
 "C102": {
  "note": "C44 and C45 say which words they are; here they are counted."
 },
 "C103": {
  "note": "The loop over the memory is a user's, as in C40; each of its steps is a call of the crate."
 }
}