# Formal model of raki: design

`raki` (in `/repo`) decodes RISC-V instructions: a `u32` or `u16` becomes an `Instruction` value or a
`DecodingError`, and an `Instruction` can be printed.  It is pure code without loops over unbounded
data, so the whole crate is modelled, function by function, and the properties are theorems that
quantify over every word, every halfword, every `usize`, both ISAs and every operand value.

There are three layers.

1. **The model** (`Model/`): each Rust function written by hand as a Lean function, with file and lines cited.
2. **The source** (`Source/`): the lines of the files, a lexer and parser in Lean that read them, and an
   evaluator for the Rust subset they use.  C67 proves that the text parses to the syntax trees, and C60 that
   running the trees gives exactly the model's outcome on every input.  So a slip in the hand translation
   would be a failed proof.
3. **The specification** (`Spec/`): what the RISC-V manuals say, written without any function of the model.
   The property theorems relate the model to it, and C61 restates the main ones on runs of the source.

## Layout

| Path under `lean/Verif` | Contents |
|---|---|
| `Model/Rust` | outcome monad (`ok`/`err`/`panic`) and checked integer operations |
| `Model/Types` | opcode enums, `InstFormat`, `Instruction`, opcode text, `get_format` |
| `Model/DecodeUtil` | `slice`, `set`, `to_signed_nbit`, `only_rv64`, `parse_extension` |
| `Model/{BaseI,M,A,C,Zicsr,...}` | one file per file of `/repo/src/decode/` |
| `Model/{Inst32,Inst16,Lib,Display}` | `Decode for u32/u16`, `TryFrom<usize>`, `Display` |
| `Model/Derive` | derived `Debug` (`{:?}`) and `PartialEq`, generated by `tools/derive.py` from the enum declarations |
| `Model/DebugPretty` | the indented form `{:#?}` of the derived `Debug` |
| `Model/Flags` | the derived `Debug` under formatter flags (`{:5?}`, `{:#x?}`, …), with core's padding functions |
| `Model/Sink` | `Display` of an instruction once more, writing into an arbitrary, possibly failing, `fmt::Write` |
| `Model/TestHelpers` | the functions the crate's unit tests are written with |
| `Model/OldOpcode` | the leftover file `src/instruction/opcode.rs`, which no `mod` declaration names (generated by `tools/oldopcode.py`) |
| `Release/` | the decoder again, over arithmetic without overflow checks (`tools/release.py` copies the bodies) |
| `Source/{Names,Syntax,Eval}` | Rust subset: identifiers, syntax, evaluator |
| `Source/Text` | the lines of `/repo/src`, copied by `tools/text.py` |
| `Source/{Words,Lexer,Parser}` | table of words (generated), lexer, parser and name resolution |
| `Source/{Lexical,Lexed}` | the lexical rules as inductive relations; the lexer cuts lines as they say (C92) |
| `Source/Formats` | what a format string stands for, as inductive relations (C91) |
| `Source/{Grammar,Items}`, `Source/{Grammar,Items}{Sound,Complete}` | the grammar as inductive relations; the parser reads what the grammar says and all of it (C91) |
| `Source/{Program,Lookup,Embed,Declared,Faithful}` | the crate's functions and types as syntax trees, function lookup, and the embedding of model values with its injectivity; generated by `tools/source.py` |
| `Source/{Spelling,Derived}` | text of every name (generated by `tools/text.py`); what `derive(Debug, PartialEq)` means for any declared type |
| `Source/TestProgram` | the functions compiled only for tests as syntax trees (generated) |
| `Source/{Codes,FileCodes,Tokens,Parsed}` | proof that the text parses to the trees of `Source/Program` and `Source/TestProgram` |
| `Source/Mono` | more depth and more functions change no run that is not stuck |
| `Spec/Count`, `Lemmas/{Count,CountIsa}` | sets of words given field by field and their sizes; the encodings and the accepted words as such sets (C86) |
| `Props/{CountErrors,CanonWords,CountValues,CountTexts,CountPrograms,CountBoth,CountFailures,CountCopies,CountMemories}` | the rejected words as such sets (C96); one word chosen for each instruction (C97) and for each text (C98); programs of every length (C99, C100) and memories that are not (C101); the words of each instruction (C102) and the memories of each program (C103) |
| `Source/{Scope,Places,NamesRead,NamesCovered,NamesPublic,Scopes}` | modules, imports and privacy read from the text; what a path stands for; what is exported (C87, C88) |
| `Source/{Typing,Signatures,TypingSound,Typed}` | a type checker for the syntax, the types of the crate's functions, and that well typed code is never stuck (C85) |
| `Source/{Annotate,Static,Annotated}` | typing rules that write the types into a program, an evaluator that goes by types, and that it agrees with `Source/Eval` (C93) |
| `Source/{Elaborate,ElaborateSound,Explicit}` | a function that writes the types out, that it follows the rules, and the crate it yields (C93) |
| `Source/{Headers,Heads}` | the declared types of functions and fields, read from the text (C85) |
| `Source/{Steps,Small,StepsBound,StepsMono,Work}` | the steps a run takes, and a bound on them computed from the text (C84) |
| `Source/{Branches,Avoid,Dead}` | branches of a program and their replacement; runs that do not touch changed functions; the program with other code in its dead branches |
| `Source/{Reach,Reach1,Reach2,Reach3}` | for every other branch a public call that reaches it (found by search, checked by the kernel) |
| `Source/{Holes,Coverage,Coverage1,Coverage2,Coverage3,Coverage4}` | programs with code left out; the branches that the tests reach (found by search, checked by the kernel) |
| `Source/Reading` | expressions written with the parentheses Rust's precedence asks for, and numbers, are read back (C67) |
| `Source/OldText`, `Source/OldRead` | the text of `src/instruction/opcode.rs` and a reader of its three tables (C77) |
| `Source/{Client,ClientNames}` | programs that use the crate, as in the documentation: reader and evaluator, and that they name public types only (C94) |
| `Source/DocRead` | the code blocks and sentences of the documentation, read from the text of the files (C70, C80, C81, C82) |
| `Source/ReadmeText` | the text of `README.md` (generated by `tools/readme.py`) |
| `Source/{Relate,Helpers,Tactics,Opcode,Operands,Imm,Decode,Display}` | proof that each function of the source computes what the model's function does |
| `Spec/{Bits,Isa32,Isa16}` | bit fields, opcode patterns, operand and immediate formulas, acceptance sets |
| `Spec/{Asm,Expand}` | assemblers `asm32`, `asm16`; programs; expansion of compressed instructions |
| `Spec/Listing` | the manuals' instruction listings as rows of fixed, register and immediate fields; reading and assembling by a row |
| `Spec/ErrorDoc` | the documentation of `DecodingError`, and words that differ in one field |
| `Spec/Unsupported` | encodings of instructions of other extensions |
| `Spec/OldOpcode` | which entry of the older opcode list an opcode comes from |
| `Spec/{Text,DebugText,FlagsText,AsmText,AsmExact,DocText}` | printed form, `{:?}` form without and with formatter flags, standard assembly syntax and the documented forms |
| `Lemmas/` | helper lemmas linking the model to arithmetic on bit fields |
| `Props/` | the property theorems, with satisfiability examples and refutations |
| `Tests/Crate` | the crate's own unit tests as checks of the model (`tools/tests.py`) |

Other tools: `tools/audit.py` compares the model's opcode tables with the source text; `tools/manifest.py`
rewrites `MANIFEST.json` from the theorem names and `tools/notes.json`; `tools/axioms.py` rewrites the axiom
list below.  `seeded/LOG.jsonl` lists the wrong versions of the model the theorems were tried on.

## Modelling decisions

* A Rust computation is a value of `RustM α`: `ok a`, `err e` (a returned `Err`) or `panic`.
  `assert!`, `unwrap`, `expect`, `unreachable!`, failed `try_from` and every arithmetic overflow are
  `panic`.  These are the semantics of a debug build.
* `Release/` has the semantics of a build without overflow checks: `+`, `-`, `pow` wrap and shift amounts are
  taken modulo the width.  C50 proves that the two builds give the same results for every public entry point.
* `u32` is `BitVec 32`, `u16` is `BitVec 16`.  `u8`/`u16` values obtained by a checked conversion, and
  `usize`, are natural numbers (the conversion's range check is modelled).  `i32` is `Int`, range-checked
  after arithmetic; bit operations on `i32` go through the 32-bit two's complement pattern.
* The closures in the `parse_imm` functions are computations that run only where they are called.
* `usize` in `TryFrom<usize>` is any natural number, so the theorems hold for every target width.  The
  evaluator of the source truncates `as usize` to the target's width; C73 shows that this changes nothing.
* `Model/Display` gives the text that `Display` writes into a sink that does not fail; `Model/Sink` is about any
  sink.  None of the crate's `fmt` functions looks at the formatter's flags; the derived `Debug` passes them on
  to numbers and `bool` (`Model/Flags`).

### The source layer

`Source/Text` holds the lines of every file the crate is made of, test modules included.
`Source.parse` reads them in Lean: it cuts lines into tokens, parses items, types, patterns, statements and
expressions by recursive descent, resolves a path to the type or module that owns it, and repeats default
trait methods for each implementing type.  It drops comments, attributes other than `derive` and `cfg(test)`,
visibility, `use` lines, type parameters, references and dereferences, and the messages of panics and assertions
with the source locations they show, and fails on anything it does not know.  A flag says whether items marked
`cfg(test)` are read.  `Source/Program` and, for test code, `Source/TestProgram` hold the resulting trees.  They were
first written by a separate parser in Python (`tools/source.py`); C67 and C76 prove that `Source.parse` gives the
same, so the Python parser need not be trusted.  `Source/Scope` reads the
`mod`, `use` and `pub` that `Source.parse` drops, and C87 shows that every path means what the scoping rules say.

`Source/Eval` gives the meaning of the trees:

* `call crate md depth owner fn args` runs a function; `md` says whether overflow checks are on; `depth` bounds
  the nesting of calls (the crate has no recursion, and every theorem says which depth is enough).  C76 proves that
  a deeper bound never changes an outcome other than `stuck`;
* the outcome is a value, a panic, or `stuck`, which stands for code the type checker would reject and for a
  depth that is too small.  The theorems of C60 and C61 show that no run of the crate is stuck;
* where Rust's type checker decides what an operation means, the evaluator looks at the values: a method
  belongs to the type of its receiver, and an unsuffixed literal takes the type of the other operand, the
  parameter, the annotation or the return type.  C85 gives every function a static type and shows that every
  run on arguments of those types yields a value of the result type or panics.  C93 writes the types out and shows
  that an evaluator that goes by them gives the same outcomes;
* `write!` yields the pieces of text it hands to its sink, in order; it evaluates all its arguments before.

### Not modelled

* Time, memory use and the behaviour of the compiler.  C84 bounds the steps of the source text, not of compiled code.

## Trusted base

* Lean's kernel, with at most the axioms `propext`, `Classical.choice` and `Quot.sound`, listed per theorem at
  the end.  No axiom, `sorry`, `native_decide` or `bv_decide` is used.
* For the model: the reading of the Rust source in `Model/`, or, by C60 and C67, the copy of the text in
  `Source/Text`, the lexical rules `Source/Lexical`, the grammar `Source/{Grammar,Items}` and the evaluator
  `Source/Eval` instead.  The lexer and the parser need not be trusted, by C91 and C92; the grammar shares with the
  parser the small functions that look a name up (`ident`, `known` and the like in `Source/Parser`).
  Both share the integer operations of `Model/Rust` and `Release/Rust` and the number formatting in
  `Model/Display`.
* For `Debug` under flags: core's `padding`, `pad` and `pad_integral` as written in `Model/Flags`; core's source is
  not part of `/repo`.
* For `Debug` and `PartialEq`: what `#[derive]` generates, as described once for all types in `Source/Derived`;
  C68 proves that the functions of `Model/Derive` and `Model/DebugPretty` agree with it.
* For sinks: that `write!` evaluates its arguments before it writes and stops at the first error (`Model/Sink` and
  `Source/Eval`), and how core's number formatting cuts its text into pieces.
* The reading of the RISC-V manuals in `Spec/`.

## Specification style

The specification uses only `fld w hi lo` (bits hi..lo of a number, as division and remainder),
`sext` (two's complement reading), and sums of fields times powers of two:

* `official32`/`official16`: the fixed-bit pattern the manual gives each opcode, per ISA;
* `accepts32`/`accepts16`: the exact set the code accepts (differs from official where the code is lax);
* operand and immediate formulas per instruction format;
* assemblers (`asm32`, `asm16`) for the round trips, on well-formed values (`WF32`, `WF16`);
* programs as lists of instructions, their images in memory and the sweep that reads them back;
* mnemonics, register names and text formats for display, and the standard assembly syntax.

## Properties

A property that is false of the code has status `partial` in `MANIFEST.json`: a `_refuted` theorem proves the
negation from a witness, and a `_partial` theorem proves the statement outside the exact exceptions.

| Id | Approach |
|---|---|
| C01, C02 | characterise every `slice`/`set`/`to_signed_nbit` call as `ok`; case analysis on the fields; for all words |
| C03, C04, C43 | arithmetic on natural numbers. C04 is false of the code: refuted by a witness; C43 is the exact panic set |
| C05, C06, C07 | master lemma: `decode w isa = ok i` iff `accepts32 isa w i.opc` and operands are the spec's. Completeness against `official32`; soundness false for a listed set (refuted by witnesses; proved for all other opcodes); `accepts32` is exact |
| C08, C09, C10 | same for halfwords. C08 fails only for the hint c.add x0; C09 only on reserved encodings |
| C11, C12 | operand part of the master lemmas |
| C13, C14, C15 | `set` and `to_signed_nbit` are proved equal to sums of fields and sign extension |
| C16 | bounds from the formulas by linear arithmetic |
| C17 | table of operand presence by opcode, and by format with the listed exceptions |
| C18, C19, C20 | comparing the two ISAs through the master lemmas |
| C21, C22, C23, C24, C58 | exact error characterisation; C58 says which errors occur at all |
| C25, C26, C51 | unfolding of `decode`; results and panic sets of the `parse_*` methods on any opcode |
| C27 | metadata |
| C28, C29, C30, C31 | assembler in the spec; both directions. C29 fails only for ssamoswap, C31 only for c.ebreak |
| C32, C33, C48, C49 | text as a function of opcode and operands; C32 false for four opcodes; C48 covers arbitrary `Instruction` values, C49 is the exact panic set on decoded ones |
| C34, C35, C36 | finite tables of opcodes and register names; text injectivity by splitting at separators |
| C37, C38, C41, C42 | corollaries of the exact acceptance sets; C42 refuted by fence.i |
| C39 | the expansion of a compressed instruction is a 32-bit instruction; assembling and decoding it gives the same operands |
| C40, C46, C47, C52, C57 | programs and sweeps over memory of any length: induction on the list. C57 recovers the memory from the decoded program |
| C44, C45 | two words decode to the same instruction exactly when they differ only in listed ignored bits |
| C50 | each operation of the wrapping build agrees with the checked one where that does not panic |
| C53, C54 | printed text has no line break, so a listing splits back into its lines: induction on the listing |
| C55 | `==` is equality; `{:?}` text determines the value: prefix-free codes for the fields |
| C56 | printed text compared with standard assembly; refuted opcode by opcode outside `printsAssembly` |
| C59, C64 | `slice`, `set`, `to_signed_nbit` on all arguments, with and without overflow checks; induction on the mask |
| C60 | evaluation of each syntax tree, function by function, callees first; the embedding has a left inverse |
| C61 | C60 combined with C01, C02, C28, C30, C43, C49 |
| C62, C63 | the manual's listings as a table of rows; row by row the table agrees with the opcode patterns, operand formulas and assemblers, then the master lemmas |
| C65 | printing into a sink in the model against the text; induction on the pieces |
| C66 | lines of the indented form, reading them back |
| C67 | lexer, parser and name resolution over the text; declared types against the model's types; induction on expressions and on digits |
| C68 | the rule for derived code on source values, with names as spelled in the text |
| C69 | uniqueness: the statements of the other properties, about arbitrary functions, have the crate as their only solution |
| C70 | documented line forms `docLines`, those in the text of instruction.rs; texts agree except for twelve opcodes, formats except for two lines (partial, refuted) |
| C71 | text under any formatter flags `isDebugTextWith`; injectivity for fill characters that cannot be mistaken for text |
| C72 | `isAssembly i s ↔ textIsAssembly i` and `isDocText l i s ↔ textIsDocumented i` for every decoded instruction with a text |
| C73 | the interpreted source gives the same outcome for every pointer width; which `usize` values make the conversion panic on each |
| C74 | two readings of the same memory from different places: where they meet, and that they may never |
| C75 | the helpers of the unit tests run the parsers one by one; C25 relates those to `decode`, C55 `==` to equality |
| C76 | the text is parsed with its test code; monotonicity of the evaluator carries the runs of C60 over; helpers evaluated symbolically |
| C77 | entries matched by the manual's mnemonic in capitals; case analysis over the opcodes; the entries read from the text of the file |
| C78 | program with other code in the dead arms run to the model's functions again; the facts known from `parse_extension` and the field widths close the dead arms; a witness call per live branch, run in the kernel |
| C79 | evaluation is monotone in the program: filling holes changes no run that is not stuck; the tests run in the kernel with holes in all 471 branches, and with `unreachable!()` in each of the others |
| C80 | the code blocks read from the text of the files; `slice` and `set` by C59 (partial, refuted) |
| C81 | the field named is replaced by a legal value, from C23 and C07; the other errors from C23, C24, C26; the sentences read from the text (partial, refuted) |
| C82 | case analysis over the list of instructions, from C07, C10, C23, C24; README.md read from its text (partial, refuted) |
| C83 | bound on every argument from C33 and the operand ranges of C14, then cases on the opcode; attained by evaluation |
| C84 | a bound on steps, computed from the syntax tree and proved by induction over it; a table of bounds checked by evaluation; C60 for the depth of calls |
| C85 | soundness of a type checker (types, ranges, exhaustive matches) by induction over the syntax; the checker run on the crate by evaluation |
| C86 | sets of words as disjoint unions of products of fields, whose sizes multiply (induction over the fields); sums over all opcodes by evaluation |
| C87 | one evaluation over the text of all files; soundness of the comparison by cases on what a path resolves to |
| C88 | the exported names by evaluation over the text; closedness by evaluation over the table of types that C85 ties to the text |
| C89 | every typed value is the image of a model value (by cases on the type and its variants); then one case per public function |
| C90 | the resolver is run on all mentions of the text by the kernel; lists of what is found are compared with the lists in the statement |
| C91 | induction on the room to nest for soundness; induction on the derivation for completeness, with what may follow a phrase as part of the induction hypothesis; uniqueness from both |
| C92 | where each kind of token ends, from the definition of the longest token; induction on the line |
| C93 | simulation between the two evaluators by induction over the syntax, and on the depth of calls; a function that writes the types out, proved to follow the rules and run on the crate by the kernel |
| C94 | a reader and an evaluator for programs that use the crate, with the crate's functions as a parameter; the examples read by the kernel, run by case analysis on what the calls return |
| C95 | a library that is stuck on arguments not of the declared types; soundness of the checker and of writing types out give equal runs; induction on the functions of the program |
| C96 | the rejected words as disjoint unions of products of fields; sizes of products; what two instruction sets reject compared error by error |
| C97 | one word chosen for each instruction; decoding is injective on the chosen words and takes all its values there; the chosen words are products of fields |
| C98 | one word chosen for each text; printing after decoding is injective on the chosen words and takes all its values there; the chosen words are products of fields |
| C99 | sequences of items of width one and two in which the first item can be told from the whole are counted by induction on the width; applied to memories (the low bits tell the width), programs and listings (a line break ends a text) |
| C100 | induction on the memory with C19 and C20; the halfwords that are equal on both are the accepted ones but `c.jal`; the counting of C99 |
| C101 | induction on the length with the first item of the memory; the numbers of C96 less those of C21; the sum by the recurrences |
| C102 | the words decoded as a given one are a product of fields, the ignored ones free and the others fixed (C44, C45); sizes of products |
| C103 | induction on the program with the first instruction of the memory; the numbers of C102 |

## Disagreements between the code and the manuals found while modelling

* The trait `Opcode` cannot be named outside the crate, so `get_format` of the ten opcode enums cannot be called there;
  that of `OpcodeKind` can (C88).
* Printing panics for decoded `sspopchk`, `c.sspush`, `c.sspopchk`, `sfence.vma`.
* `Instruction::try_from(usize)` panics on values too wide for the selected width.
* `mulhsu` prints as `mulhsu,`; `fence` prints as `fence.i`; `fence.i` itself is not decodable.
* Stores and branches print `rs1, imm(rs2)`; shift-immediate instructions print no shift amount;
  `sspush` prints `zero` for its operand.
* On RV32 shifts by 32 or more, valid on RV64, are rejected with `InvalidFunct7`, not with `OnlyRv64Inst` (C96).
* `jalr` ignores funct3; `sll slt sltu xor or and` ignore funct7 (other than the M value); `slliw`
  ignores funct7 and `sllw` accepts funct7 0x20; `ecall`/`ebreak` ignore rd and rs1; `sfence.vma`
  ignores rd; counter reads ignore rs1 and the `*h` forms are accepted on RV64; `ssamoswap.d` is
  accepted on RV32; `lr.*` ignores rs2; `sspush`, `sspopchk`, `ssrdp` ignore parts of their fixed bits.
* Reserved compressed encodings are accepted, and c.ebreak is reported for all values of bits 6..2.
* csrrs on a counter CSR is reported as the counter read whatever rs1 is; `ssamoswap` drops aq and rl.
* `u16.decode` of zero is `IllegalInstruction`, `u16.parse_opcode` of zero is `InvalidOpcode`.
* `lui` reports the unshifted unsigned field, `c.lui` the shifted signed value.
* `lr.w` has format `ALrFormat`, `lr.d` has `AFormat`; the doc comments of `InstFormat` disagree
  with `Display` for `lw`, `sw`, `beq`, `jal`, `c.addi4spn`, `c.lw`, `c.sw`, `c.beqz`, `c.srai`, `sc.w`, `lr.w` and
  `sspopchk`, and list `c.nop` and `csrrwi` under formats they do not have (C70).
* The test `zicfiss_16` never checks an opcode: `matches!(&op_16, op)` binds a new variable (C75).
* 29 branches are dead (C78): a_extension.rs:25, 39, 43; base_i.rs:74, 93, 102, 104, 120, 126; c_extension.rs:47, 54,
  56, 61, 90; m_extension.rs:20, 30; zicboz_extension.rs:20, 22; zicfiss_extension.rs:21, 28, 91;
  zicntr_extension.rs:19, 21, 23; zicsr_extension.rs:17, 19; zifencei_extension.rs:10; inst_32.rs:57; inst_16.rs:39.
* The tests reach 234 of the 705 branches (C79): none of the printing code, 6 of the 29 branches of the decoding of
  atomic instructions, 23 of the 95 of the decoding of base instructions.
* The examples in the documentation of `slice` (decode.rs:125-130) and `set` (decode.rs:137-142) are wrong, and the second
  shows the inverse of what `set` does (C80).  Both are marked `ignore`.
* The example in the documentation of the crate declares `fn example()` and never calls it, so that the documentation
  test checks nothing (C94).
* Instructions of other extensions are taken for base instructions: `andn` for `and`, `sh1add` for `slt`, `clzw` for
  `slliw`, `c.mop.3` for `c.lui` and others, listed in `Spec/Unsupported` (C82).
* README.md does not mention Zicboz, which is supported (C82).
* The documentation of `DecodingError::Not16BitInst` and that of `Not32BitInst` (decode.rs:48-51) are exchanged (C81).
* `InvalidOpcode`, documented as "has an opcode that cannot be decoded", is also returned for words with the opcode of
  `cbo.zero` or of the shadow-stack instructions and for halfwords with that of `c.subw` (C81).
* The function in the example of the crate documentation (`fn example`) is never called, so its doc-test only compiles it.
* `slice(31, 0)` on a `u32` panics if overflow checks are on (no caller does this).

## Axioms of each theorem

<!-- axioms -->
* none (7 theorems): C34_deviations, C55_eq_error, C55_debug_error, C67_derives, C70_formats_refuted, C70_every_format, C76_tests.
* propext (23 theorems): C13_base_formats, C41_operands_not_examined, C60_faithful, C62_rows32, C62_rows16, C67_enums, C67_fields, C68_debug_error, C68_debug_format, C68_debug_opcode, C68_eq_error, C68_eq_format, C68_eq_opcode, C70_formats_partial, C78_dead_branches, C81_reader, C85_rejects, C85_accepts, C87_examples, C94_crate, C95_private, C96_total, C99_share.
* propext, Quot.sound (58 theorems): C04_refuted, C06_refuted, C08_refuted, C09_refuted, C25_decode16_zero, C29_refuted, C31_refuted, C32_refuted, C33_stores_swapped, C34_refuted, C35_abi_names, C36_lossy, C37_compressed_shadow_stack, C38_no_dead_opcode, C42_refuted, C49_display_panics_witnesses, C51_opcodes32, C51_parse_imm_isa16, C57_nonstandard, C59_to_signed_nbit_panics, C59_set32, C59_set16, C60_display, C60_display_to, C60_format, C60_name, C60_extensions, C64_set32, C64_set16, C65_panics_before_writing, C65_pieces, C67_opcodes, C68_debug, C68_eq, C74_never_meet, C75_zicfiss_16_any_opcode, C76_depth, C76_same, C78_live, C79_unseen_branches, C79_gap_count, C80_set_refuted, C80_set_iff, C80_examples_partial, C81_lengths_refuted, C84_display, C85_all, C87_calls, C89_values, C91_formats, C93_exists, C93_rejects, C94_decode, C94_within, C94_prints, C95_single, C101_total, C102_product.
* propext, Classical.choice, Quot.sound (330 theorems): C01_decode32_total, C02_decode16_total, C03_try_from_32, C03_try_from_16, C04_try_from_no_panic_partial, C05_official32_decoded, C06_sound32_partial, C06_strict_is_exact, C07_accepts32_exact, C08_official16_decoded_partial, C08_add_x0, C09_sound16_partial, C09_strict_is_exact, C10_accepts16_exact, C11_registers32, C11_register_fields32, C12_registers16, C13_base_immediates, C14_other_immediates, C15_compressed_immediates, C16_register_range32, C16_immediate_range32, C16_register_range16, C16_immediate_range16, C17_reported, C17_format_shows, C17_presence32, C17_presence16, C18_only_rv64_32, C18_only_rv64_16, C19_rv32_then_rv64, C19_rv64_err, C20_rv32_then_rv64, C20_jal_addiw, C20_rv64_then_rv32, C21_low_bits_32, C21_low_bits_16, C21_never_both, C22_no_width_error, C22_illegal_32, C22_illegal_16, C23_errors32_exact, C24_errors16_exact, C24_errors16, C25_decode32_parse_ok, C25_decode32_parse_err, C25_decode16_parse_ok, C25_decode16_parse_err, C26_parse32, C26_parse16, C27_metadata32, C27_metadata16, C28_encode_decode, C28_wellformed_iff, C29_decode_encode_partial, C29_injective_partial, C30_encode_decode, C30_wellformed_iff, C31_decode_encode_partial, C31_injective_partial, C32_no_panic_partial, C33_text, C33_text_exists, C34_distinct, C34_no_space, C34_manual_partial, C35_names_distinct, C35_names_total, C36_text_determines, C36_lossless, C37_counters, C37_m, C37_system4, C37_ssamoswap, C39_same_operands, C39_expansion_decodes, C39_expansion_injective, C40_program_prefix, C40_program, C40_layout_injective, C41_opcode_depends_on_examined, C42_fence_i_rejected, C42_advertised32_partial, C42_advertised16, C43_try_from_panics, C44_same_value_iff, C45_same_value_iff, C46_sweep_no_panic, C47_sweep_ok_iff, C47_sweep_err_iff, C47_sweep_length, C47_sweep_append, C48_display_any, C48_display_any_panics, C49_display_panics_iff, C50_decode32, C50_decode16, C50_try_from, C50_opcode32, C50_opcode16, C50_operands32, C50_operands16, C51_parsers32, C51_parsers16, C51_parse_imm_isa, C51_parse_imm_isa_shift, C52_rv64_is_try_from, C52_program, C52_no_panic, C52_rv32_on_rv64, C53_one_line, C54_listing_panics_iff, C54_listing_determines, C54_listing_lossless, C55_eq_format, C55_eq_opcode, C55_eq_instruction, C55_debug_text, C55_debug_injective, C55_eq_iff_debug, C56_assembly_partial, C56_refuted, C57_memory_from_program, C57_listing_determines_memory, C58_errors_of_u32, C58_errors_of_u16, C59_slice32, C59_slice16, C59_to_signed_nbit, C60_decode32, C60_decode16, C60_try_from, C60_parsers32, C60_parsers16, C60_helpers, C60_parse_extension, C61_decode32_returns, C61_decode16_returns, C61_try_from_panics, C61_display_panics, C61_builds_agree, C61_round_trip32, C61_round_trip16, C62_listed32, C62_listed16, C62_only_listed32, C62_only_listed16, C62_no_overlap32, C62_no_overlap16, C63_assemble32, C63_assemble16, C63_reassemble32, C63_reassemble16, C64_slice32, C64_slice16, C64_to_signed_nbit, C65_prefix, C65_to_string, C65_buffer, C66_pretty_text, C66_pretty_injective, C66_same_content, C67_parse, C67_words, C67_operators, C67_numbers, C67_runs, C68_spelling, C68_pretty_plain, C68_pretty_opcode, C68_pretty, C68_eq_model, C68_results, C68_runs, C69_meets, C69_unique, C70_lines, C70_text_partial, C70_text_refuted, C71_register, C71_immediate, C71_text, C71_plain, C71_injective, C71_precision_zero, C71_names, C71_opcode, C71_declared, C72_assembly, C72_documentation, C73_targets_agree, C73_fits, C73_try_from_panics, C74_meet, C74_apart, C74_reach, C75_test_32, C75_test_32_panics, C75_test_16, C75_test_16_panics, C75_one_expectation, C75_wrappers, C75_zicfiss_16, C76_parse, C76_helpers, C76_closure, C76_expectations, C76_pass, C77_kept, C77_added, C77_format, C77_extension, C77_manual, C77_name, C77_text, C77_once, C78_dead, C78_dead_iff, C79_unseen, C79_seen, C79_unseen_iff, C79_gap, C80_blocks, C80_slice_refuted, C81_documented, C81_fields_partial, C81_extension_partial, C81_opcode32_partial, C81_opcode32_refuted, C81_opcode16_partial, C81_opcode16_refuted, C81_isa_partial, C81_illegal_partial, C81_lengths_partial, C82_words_partial, C82_refuted, C82_foreign32, C82_halfwords_partial, C82_halfwords_refuted, C82_foreign16, C82_readme, C82_groups, C83_display, C83_display_attained, C83_buffer, C83_any64, C83_any32, C83_any_attained, C83_debug, C83_debug_attained, C83_pretty, C83_pretty_attained, C84_decode32, C84_decode16, C84_try_from, C84_parsers32, C84_parsers16, C84_set, C84_examples, C85_sound, C85_declared, C85_traits, C85_expression, C86_opcodes, C86_mistaken, C86_accepted, C86_wrong, C86_lost, C87_names, C87_types, C87_files, C87_covers, C88_names, C88_functions, C88_closed, C89_modelled, C89_builds, C89_panics, C90_outside, C90_words, C90_words_example, C91_sound, C91_complete, C91_unambiguous, C91_crates, C91_one_crate, C91_files, C92_lines, C92_unambiguous, C92_names, C92_one_program, C92_files, C93_same, C93_programs, C93_decode, C93_display, C94_blocks, C94_read, C94_error, C94_blind, C94_program, C94_program_ends, C94_runs, C94_private, C94_rejects, C94_scopes, C95_programs, C95_recursive, C95_crate, C95_builds, C96_errors, C96_rejected, C96_only, C96_kept, C97_opcodes, C97_total, C98_opcodes, C98_total, C98_apart, C99_memories, C99_programs, C99_listings, C100_both, C100_same, C101_errors, C101_cut, C102_words, C102_halfwords, C103_memories, C103_only.
<!-- end axioms -->
