{"id": "C01", "title": "32-bit decode never panics", "statement": "Calling decode on any u32 under either ISA returns Ok or Err; no assertion, unwrap, unreachable!, shift/pow/subtraction overflow or failed integer conversion is ever hit.", "quantifier": "all 2^32 words and both ISAs", "why_tests_cant": "A panic hides in one combination of fields out of 2^32 words; tests sample a few dozen words.", "anchors": ["src/decode/inst_32.rs: impl Decode for u32", "src/decode/inst_32.rs: slice", "src/decode.rs: DecodeUtil::to_signed_nbit"]}
{"id": "C02", "title": "16-bit decode never panics", "statement": "Calling decode on any u16 under either ISA returns Ok or Err and never panics (including the unreachable! arms and the overflow-checked +8, pow and shifts).", "quantifier": "all 2^16 halfwords and both ISAs", "why_tests_cant": "The unit tests decode about fifteen halfwords, all under Rv64.", "anchors": ["src/decode/inst_16.rs: impl Decode for u16", "src/decode/c_extension.rs: quadrant1"]}
{"id": "C03", "title": "usize conversion agrees with the width-specific decoder", "statement": "Instruction::try_from(n) for a usize n whose low two bits are 11 and which fits u32 equals (n as u32).decode(Rv64); for other low bits and n fitting u16 it equals (n as u16).decode(Rv64).", "quantifier": "every usize value of any width", "why_tests_cant": "Dispatch must be right for every value; tests use three literals.", "anchors": ["src/lib.rs: impl TryFrom<usize> for Instruction"]}
{"id": "C04", "title": "usize conversion reports unrepresentable values as errors, not panics", "statement": "Instruction::try_from never panics. (The code violates this: it panics exactly when the low two bits are 11 and the value exceeds u32::MAX, or the low two bits are not 11 and the value exceeds u16::MAX.)", "quantifier": "every usize value of any width", "why_tests_cant": "The failing region (upper bits set) is never sampled by the tests.", "anchors": ["src/lib.rs: impl TryFrom<usize> for Instruction"]}
{"id": "C05", "title": "Every standard 32-bit encoding of a supported instruction is recognised as that instruction", "statement": "For each supported 32-bit instruction (RV32I/RV64I, M, A, fence, Zicsr, Zicntr, Zicboz, Zicfiss, privileged) and every word whose fixed bits are those the RISC-V manual assigns to it, decode under an ISA that has the instruction is Ok with that opcode. csrrs on the counter CSRs is reported under its pseudo-instruction name.", "quantifier": "all instructions, all words matching their fixed bits, both ISAs", "why_tests_cant": "Each instruction has up to 2^25 words.", "anchors": ["src/decode/inst_32.rs: parse_extension, parse_opcode", "src/decode/base_i.rs: parse_opcode", "src/decode/a_extension.rs", "src/decode/m_extension.rs", "src/decode/zicsr_extension.rs", "src/decode/zicfiss_extension.rs"]}
{"id": "C06", "title": "A 32-bit word is reported as an instruction only if it is an encoding of it", "statement": "If decode of a u32 is Ok with opcode o then the word has exactly the fixed bits the RISC-V manual assigns to o and o exists in that ISA. (True for most opcodes; the code is lax for a listed set, e.g. jalr ignores funct3, sll/slt/sltu/xor/or/and ignore funct7, ecall ignores rd/rs1, ssamoswap.d is accepted on RV32.)", "quantifier": "all 2^32 words and both ISAs", "why_tests_cant": "Misdecoding of reserved or foreign-extension encodings is a universally quantified negative claim.", "anchors": ["src/decode/base_i.rs: parse_opcode", "src/decode/priv_extension.rs", "src/decode/zicntr_extension.rs", "src/decode/zicfiss_extension.rs"]}
{"id": "C07", "title": "Exact acceptance set of the 32-bit decoder", "statement": "For every word, ISA and opcode o: decode is Ok with opcode o if and only if the fields of the word satisfy the acceptance row for o (a table of bit-field equations plus the ISA condition).", "quantifier": "all 2^32 words and both ISAs and every opcode", "why_tests_cant": "An if-and-only-if over 2^33 inputs and 130 opcodes.", "anchors": ["src/decode/inst_32.rs: parse_opcode", "all bit_32::parse_opcode functions"]}
{"id": "C08", "title": "Every standard 16-bit encoding of a supported compressed instruction is recognised as that instruction", "statement": "For each supported RVC/Zicfiss instruction and every halfword that the manual assigns to it (including hints), decode under an ISA that has it is Ok with that opcode. (The code violates this for one hint family: c.add with rd=x0 and rs2!=x0 is reported as c.ebreak.)", "quantifier": "all compressed instructions, all matching halfwords, both ISAs", "why_tests_cant": "Tests cover 14 of 65536 halfwords and never use Rv32.", "anchors": ["src/decode/c_extension.rs: quadrant0, quadrant1, quadrant2", "src/decode/inst_16.rs: parse_extension"]}
{"id": "C09", "title": "A 16-bit word is reported as a compressed instruction only if it is an encoding of it", "statement": "If decode of a u16 is Ok with opcode o then the halfword is an encoding that the manual assigns to o (not a reserved one) and o exists in that ISA. (The code violates this on reserved encodings: c.addi4spn with zero immediate, c.lwsp/c.ldsp with rd=0, c.jr with rs1=0, c.addiw with rd=0, c.lui/c.addi16sp with zero immediate, RV32 shifts with shamt[5]=1.)", "quantifier": "all 2^16 halfwords and both ISAs", "why_tests_cant": "Negative claim over the whole domain.", "anchors": ["src/decode/c_extension.rs: quadrant0, quadrant1, quadrant2"]}
{"id": "C10", "title": "Exact acceptance set of the 16-bit decoder", "statement": "For every halfword, ISA and opcode o: decode is Ok with opcode o if and only if the halfword satisfies the acceptance row for o.", "quantifier": "all halfwords, both ISAs, all opcodes", "why_tests_cant": "If-and-only-if over 2^17 inputs.", "anchors": ["src/decode/inst_16.rs", "src/decode/c_extension.rs"]}
{"id": "C11", "title": "Register operands of 32-bit instructions are the encoded register fields", "statement": "Whenever decode of a u32 is Ok: rd, when present, is bits 11..7, rs1 is bits 19..15, rs2 is bits 24..20 - except CSR instructions, whose rs2 carries the CSR number bits 31..20, and sspush/sspopchk whose rd (and sspush's rs1) is the constant 0.", "quantifier": "all 2^32 words and both ISAs", "why_tests_cant": "Field extraction must be right for every bit pattern.", "anchors": ["parse_rd, parse_rs1, parse_rs2 of every bit_32 module"]}
{"id": "C12", "title": "Register operands of 16-bit instructions are the encoded register fields", "statement": "Whenever decode of a u16 is Ok: three-bit register fields map to x8..x15, five-bit fields map to themselves, each taken from the position the instruction's format assigns; c.sspush/c.sspopchk report rd 1/5.", "quantifier": "all halfwords, both ISAs", "why_tests_cant": "Every register/format combination matters.", "anchors": ["src/decode/c_extension.rs: parse_rd, parse_rs1, parse_rs2"]}
{"id": "C13", "title": "I-, S-, B-, U-, J-type immediates and shift amounts are decoded exactly", "statement": "Whenever decode of a u32 yields a base-integer instruction, its immediate equals the manual's formula: I/S 12-bit two's complement, B 13-bit and J 21-bit two's complement with bit 0 zero, U the raw upper 20 bits, shift amounts bits 24..20 (RV32, *W) or 25..20 (RV64).", "quantifier": "all 2^32 words and both ISAs", "why_tests_cant": "Bit scrambling and sign extension errors show only for particular bit patterns.", "anchors": ["src/decode/base_i.rs: parse_imm", "src/decode/inst_32.rs: set", "src/decode.rs: DecodeUtil::to_signed_nbit"]}
{"id": "C14", "title": "Non-base 32-bit immediates are decoded exactly", "statement": "A-extension instructions carry aq/rl (bits 26..25) as immediate, csrr*i the 5-bit zero-extended uimm, fence the raw 12-bit fm/pred/succ field, and M, Zicntr, Zicboz, Zicfiss, privileged and register CSR instructions carry none.", "quantifier": "all 2^32 words and both ISAs", "why_tests_cant": "Same.", "anchors": ["parse_imm of a_extension, zicsr_extension, zifencei_extension, m_extension, zicntr_extension, zicboz_extension, zicfiss_extension, priv_extension"]}
{"id": "C15", "title": "Compressed immediates are decoded exactly", "statement": "Whenever decode of a u16 is Ok its immediate equals the manual's scrambled-field formula for that instruction (scaled, zero- or sign-extended as specified), and is absent where the instruction has none.", "quantifier": "all halfwords, both ISAs", "why_tests_cant": "Each of 14 immediate layouts permutes bits differently.", "anchors": ["src/decode/c_extension.rs: parse_imm", "src/decode/inst_16.rs: set"]}
{"id": "C16", "title": "Decoded operands are always in range and aligned", "statement": "Every register operand is below 32 (a CSR number below 4096); I/S immediates lie in [-2048,2047], branch offsets are even in [-4096,4094], jal offsets even in [-2^20,2^20-2], lui/auipc in [0,2^20), 32-bit shift amounts below XLEN; compressed offsets are even/word/doubleword aligned and in their ranges.", "quantifier": "all 2^32 words and both ISAs; all halfwords and both ISAs", "why_tests_cant": "Range claims quantify over all inputs.", "anchors": ["all parse_imm and parse_r* functions"]}
{"id": "C17", "title": "Which operands are present depends only on the opcode and matches the instruction format", "statement": "For any two inputs that decode to the same opcode, the same operands are present; and presence agrees with what the reported instruction format displays, except sspopchk (format OnlyRs2 but rs2 absent) and sfence.vma (RFormat but rd absent).", "quantifier": "all 2^32 words and both ISAs; all halfwords", "why_tests_cant": "Relates pairs of arbitrary inputs.", "anchors": ["all parse_* functions", "get_format of every opcode enum"]}
{"id": "C18", "title": "OnlyRv64Inst is reported exactly for RV64-only instructions on RV32", "statement": "decode returns Err(OnlyRv64Inst) if and only if the ISA is Rv32, the word decodes successfully under Rv64, and the opcode found there is one of the gated RV64-only instructions; it is never returned under Rv64.", "quantifier": "all 2^32 words and both ISAs; all halfwords and both ISAs", "why_tests_cant": "If-and-only-if over the whole domain and a relation between two runs.", "anchors": ["src/decode.rs: only_rv64", "src/decode/base_i.rs", "src/decode/c_extension.rs"]}
{"id": "C19", "title": "Every word valid on RV32 decodes identically on RV64 (32-bit)", "statement": "If a u32 decodes to Ok(i) under Rv32 then it decodes to the same Ok(i) under Rv64, operands and immediate included; if it fails under Rv64 it fails under Rv32.", "quantifier": "all words", "why_tests_cant": "Hyperproperty relating two executions on the same word.", "anchors": ["src/decode/inst_32.rs", "src/decode/base_i.rs: parse_imm"]}
{"id": "C20", "title": "RV32 and RV64 agree on compressed instructions except c.jal/c.addiw", "statement": "If a u16 decodes to Ok(i) under Rv32 with opcode other than c.jal, it decodes to the same Ok(i) under Rv64; a halfword that is c.jal on Rv32 is c.addiw on Rv64 and conversely.", "quantifier": "all halfwords", "why_tests_cant": "Hyperproperty over all halfwords.", "anchors": ["src/decode/c_extension.rs: quadrant1"]}
{"id": "C21", "title": "Length discrimination by the low two bits", "statement": "decode of a u32 whose low two bits are not 11 is Err(InvalidOpcode); decode of a u16 whose low two bits are 11 is Err(InvalidOpcode). Hence for no word do both the u32 decoder and the u16 decoder (on its low half) succeed.", "quantifier": "all 2^32 words and both ISAs; all halfwords", "why_tests_cant": "Universal negative.", "anchors": ["src/decode/inst_32.rs", "src/decode/c_extension.rs: parse_opcode"]}
{"id": "C22", "title": "The 16-bit/32-bit mismatch errors are never returned by decode", "statement": "decode never returns Not16BitInst or Not32BitInst, the u32 decoder never returns IllegalInstruction, and the u16 decoder returns IllegalInstruction exactly for the all-zero halfword.", "quantifier": "all 2^32 words and both ISAs; all halfwords", "why_tests_cant": "Universal negative.", "anchors": ["src/decode/inst_16.rs: decode", "src/decode/inst_32.rs: parse_opcode"]}
{"id": "C23", "title": "Exact error classification of the 32-bit decoder", "statement": "For every word and ISA the error returned is exactly determined by the first undefined field: unknown major opcode -> InvalidOpcode; undefined funct3 -> InvalidFunct3 (or UnknownExtension for MISC-MEM); undefined AMO funct5 / OP-32 funct7 -> UnknownExtension; RV32 shift funct7 -> InvalidFunct7, RV64 shift funct6 -> InvalidFunct6, and so on.", "quantifier": "all 2^32 words and both ISAs", "why_tests_cant": "An exact classification of 2^33 inputs.", "anchors": ["src/decode/inst_32.rs: parse_extension", "all bit_32::parse_opcode"]}
{"id": "C24", "title": "Exact error classification of the 16-bit decoder", "statement": "Under either ISA the u16 decoder's only errors are IllegalInstruction (zero), OnlyRv64Inst (Rv32 and a gated encoding) and InvalidOpcode, each returned exactly on a described set of halfwords.", "quantifier": "all halfwords, both ISAs", "why_tests_cant": "Exact classification over the domain.", "anchors": ["src/decode/c_extension.rs", "src/decode/inst_16.rs"]}
{"id": "C25", "title": "decode agrees with the individual parse_* methods", "statement": "If parse_opcode returns Ok(o) then parse_rd, parse_rs1, parse_rs2 and parse_imm called with o all return Ok without panicking and decode returns Ok with exactly those values, o.get_format() and the right compression flag; if parse_opcode returns Err(e) so does decode (except the all-zero halfword).", "quantifier": "all 2^32 words and both ISAs; all halfwords", "why_tests_cant": "Universal consistency between entry points.", "anchors": ["src/decode/inst_32.rs: impl Decode", "src/decode/inst_16.rs: impl Decode"]}
{"id": "C26", "title": "parse_* with an opcode of the other width", "statement": "u32 parse_rd/rs1/rs2/imm given any C opcode return Err(Not32BitInst); u16 ones given any opcode other than C/Zicfiss return Err(Not16BitInst); they panic exactly when given a Zicfiss opcode of the other width (u32: all four; u16: parse_rd only).", "quantifier": "all words/halfwords, every opcode, both ISAs", "why_tests_cant": "All word x opcode combinations.", "anchors": ["src/decode/inst_32.rs", "src/decode/inst_16.rs", "src/decode/zicfiss_extension.rs"]}
{"id": "C27", "title": "Metadata of decoded instructions is consistent", "statement": "Whenever decode is Ok, inst_format is the format of the opcode, is_compressed is false for u32 and true for u16, a u32 never yields a C opcode, and a u16 yields only C opcodes, c.sspush or c.sspopchk.", "quantifier": "all 2^32 words and both ISAs; all halfwords", "why_tests_cant": "Universal.", "anchors": ["src/decode/inst_32.rs: decode", "src/decode/inst_16.rs: decode", "src/instruction.rs: get_format"]}
{"id": "C28", "title": "Encode-decode round trip (32-bit)", "statement": "For every well-formed instruction value of every 32-bit opcode with arbitrary in-range operands, assembling it per the RISC-V manual and decoding the word returns exactly that instruction value.", "quantifier": "all opcodes, all in-range registers, immediates, CSR numbers, both ISAs", "why_tests_cant": "Product of operand spaces up to 2^25 per opcode.", "anchors": ["src/decode/inst_32.rs: decode"]}
{"id": "C29", "title": "Decode-encode round trip and injectivity (32-bit)", "statement": "If a word decodes to Ok(i) and is a standard encoding, re-assembling i gives back that very word; hence no two standard words decode to the same instruction value. (Violated by ssamoswap.w/d with aq or rl set: those bits are not reported.)", "quantifier": "all 2^32 words and both ISAs", "why_tests_cant": "Injectivity relates pairs of words.", "anchors": ["src/decode/inst_32.rs: decode"]}
{"id": "C30", "title": "Encode-decode round trip (16-bit)", "statement": "For every well-formed compressed instruction value, assembling it per the manual and decoding the halfword returns exactly that value.", "quantifier": "all compressed opcodes, all in-range operands, both ISAs", "why_tests_cant": "Same.", "anchors": ["src/decode/inst_16.rs: decode"]}
{"id": "C31", "title": "Decode-encode round trip and injectivity (16-bit)", "statement": "If a halfword decodes to Ok(i), re-assembling i gives back that very halfword; hence the 16-bit decoder is injective on the halfwords it accepts, for each ISA. (Violated only by c.ebreak, which is reported for 32 different halfwords, bits 6..2 being ignored.)", "quantifier": "all halfwords, both ISAs", "why_tests_cant": "Injectivity relates pairs.", "anchors": ["src/decode/inst_16.rs: decode"]}
{"id": "C32", "title": "Displaying a decoded instruction never panics", "statement": "Formatting any instruction produced by decode succeeds. (The code violates this exactly for sspopchk, c.sspush, c.sspopchk and sfence.vma.)", "quantifier": "all 2^32 words and both ISAs; all halfwords", "why_tests_cant": "The failing opcodes are never formatted by tests.", "anchors": ["src/instruction.rs: impl Display for Instruction"]}
{"id": "C33", "title": "Displayed text is mnemonic plus the operands of the format", "statement": "For every decoded instruction other than those that panic, the text is the opcode's mnemonic followed, per format, by the listed operand fields: registers by ABI name, immediates in signed decimal (hex for lui/auipc/jal and c.addi4spn), CSR number in hex or decimal.", "quantifier": "all 2^32 words and both ISAs; all halfwords", "why_tests_cant": "Text depends on every operand value.", "anchors": ["src/instruction.rs: impl Display for Instruction"]}
{"id": "C34", "title": "Mnemonics are unambiguous and are those of the manual", "statement": "Distinct opcodes have distinct mnemonics, no mnemonic contains a space, and each equals the manual's mnemonic (compressed ones with a capital C. prefix). (Violated by mulhsu, printed as 'mulhsu,', and by fence, printed as 'fence.i'.)", "quantifier": "all pairs of opcodes", "why_tests_cant": "Pairwise over ~165 opcodes.", "anchors": ["impl Display of every opcode enum"]}
{"id": "C35", "title": "Register names are the ABI names and unambiguous", "statement": "The displayed name of register n is its ABI name for n<32, distinct for distinct registers; the panic for n>=32 is unreachable from decoded instructions.", "quantifier": "all register numbers and all decoded instructions", "why_tests_cant": "Reachability over all inputs.", "anchors": ["src/instruction.rs: reg2str"]}
{"id": "C36", "title": "Displayed text determines the instruction up to the operands the format omits", "statement": "If two decoded instructions print the same text then they have the same opcode and the same displayed operands. (Operands not displayed: shift amounts of slli/srli/srai/*iw, aq/rl, fence fields.)", "quantifier": "all pairs of decodable inputs", "why_tests_cant": "Injectivity of text over pairs of 2^32 inputs.", "anchors": ["src/instruction.rs: impl Display"]}
{"id": "C37", "title": "Overlapping encodings are resolved in favour of the specific extension", "statement": "csrrs on cycle/time/instret[h] is always reported as the Zicntr read; funct7=0000001 of OP/OP-32 is always M, never base; 0x6081/0x6281 are c.sspush/c.sspopchk, never c.lui; SYSTEM funct3=100 is never a CSR instruction; AMO funct5=01001 is Zicfiss, never A.", "quantifier": "all 2^32 words and both ISAs; all halfwords", "why_tests_cant": "Universal over overlap regions.", "anchors": ["src/decode/inst_32.rs: parse_extension", "src/decode/inst_16.rs: parse_extension"]}
{"id": "C38", "title": "Every opcode variant is producible by the decoder", "statement": "For each opcode variant of every extension there is an input and ISA that decodes to it (no dead variants).", "quantifier": "all opcode variants", "why_tests_cant": "Existential for each of ~165 variants.", "anchors": ["all opcode enums", "all parse_opcode"]}
{"id": "C39", "title": "Compressed instructions carry the operands of their expansion", "statement": "For every decoded compressed instruction, the operands equal those of the 32-bit instruction it expands to, where reported: two-address forms report rd = rs1, loads/stores the same base/offset, c.lui's immediate is the sign-extended value shifted left by 12, etc. Assembling the expansion and decoding it with the 32-bit decoder for the same ISA gives the expansion back, except exactly for c.slli/c.srli/c.srai by 32 or more on RV32, which the 16-bit decoder accepts although reserved. The compressed opcode and the expansion determine the compressed instruction.", "quantifier": "all halfwords, both ISAs", "why_tests_cant": "Relates the two decoders on all halfwords.", "anchors": ["src/decode/c_extension.rs", "src/decode/base_i.rs"]}
{"id": "C40", "title": "A program of mixed-width instructions decodes back to itself", "statement": "Laying out any list of well-formed RV64 instructions as halfwords and repeatedly converting (32 bits if the low two bits are 11, else 16 bits) with Instruction::try_from yields the original list, with no error, panic or loss of synchronisation.", "quantifier": "all finite programs", "why_tests_cant": "Unbounded length and all instruction mixes.", "anchors": ["src/lib.rs: impl TryFrom<usize> for Instruction"]}
{"id": "C41", "title": "Bits outside an instruction's fixed fields never change its opcode", "statement": "Changing any register, immediate, aq/rl or CSR bits (outside the fields that identify the instruction) of a decodable word never changes the opcode reported or turns success into failure.", "quantifier": "all pairs of words agreeing on the identifying fields", "why_tests_cant": "Hyperproperty over pairs of words.", "anchors": ["src/decode/inst_32.rs: parse_opcode"]}
{"id": "C42", "title": "All instructions of the extensions advertised as supported are decodable", "statement": "Every instruction of rv32/64imac, Zicsr, Zifencei, Zicntr, Zicboz and Zicfiss (as the README lists) decodes under its ISA. (Violated by fence.i, which is Err(UnknownExtension) on all its words.)", "quantifier": "all encodings of all listed instructions", "why_tests_cant": "Coverage claim over the instruction set.", "anchors": ["README.md", "src/decode/inst_32.rs: parse_extension"]}
{"id": "C43", "title": "Exact panic set of the usize conversion", "statement": "Instruction::try_from(n) panics if and only if the low two bits of n are 11 and n exceeds u32::MAX, or the low two bits are not 11 and n exceeds u16::MAX.", "quantifier": "all usize values", "why_tests_cant": "2^64 inputs; the claim says where panics happen and that there are no others.", "anchors": ["src/lib.rs: TryFrom<usize> for Instruction"]}
{"id": "C44", "title": "Exact ambiguity of the 32-bit decoder", "statement": "For a word that decodes to Ok(i), another word decodes to the same value under the same ISA if and only if it is accepted for the same opcode and agrees with the first on the operand fields of that opcode; no other bit of a word influences the value.", "quantifier": "all pairs of words, both ISAs", "why_tests_cant": "ranges over pairs of 2^32 words", "anchors": ["src/decode/inst_32.rs: Decode for u32"]}
{"id": "C45", "title": "Exact ambiguity of the 16-bit decoder", "statement": "For a halfword that decodes to Ok(i), another halfword decodes to the same value under the same ISA if and only if it is the same halfword or both are among the 32 halfwords reported as c.ebreak.", "quantifier": "all pairs of halfwords, both ISAs", "why_tests_cant": "ranges over pairs of halfwords, compared through all operands", "anchors": ["src/decode/inst_16.rs: Decode for u16", "src/decode/c_extension.rs"]}
{"id": "C46", "title": "Sweeping over arbitrary memory never panics", "statement": "Repeatedly taking one or two halfwords by the low two bits and converting them with Instruction::try_from never panics, for memory of any length and content.", "quantifier": "all lists of halfwords", "why_tests_cant": "unbounded memory contents", "anchors": ["src/lib.rs: TryFrom<usize>"]}
{"id": "C47", "title": "What a sweep over arbitrary memory returns", "statement": "The sweep succeeds exactly when the memory is a sequence of decodable RV64 instructions possibly followed by the first half of another, and returns exactly those; it fails with e exactly when after some decodable instructions one is refused with e. The widths reported account for every halfword, and appending memory after a complete program does not change its reading.", "quantifier": "all lists of halfwords", "why_tests_cant": "unbounded memory contents", "anchors": ["src/lib.rs: TryFrom<usize>", "src/instruction.rs: Instruction.is_compressed"]}
{"id": "C48", "title": "Displaying an arbitrary Instruction value", "statement": "The fields of Instruction are public, so a value may combine any opcode, format and operands. Displaying it yields text exactly when every operand printed by its format field is present and every register named is below 32 (and, for formats whose text depends on the opcode, the opcode is one with a text); the text is then the mnemonic plus those operands. In every other case it panics; it never returns an error.", "quantifier": "all Instruction values, decoded or not", "why_tests_cant": "the space of values is unbounded (usize operands)", "anchors": ["src/instruction.rs: impl Display for Instruction"]}
{"id": "C49", "title": "Exact panic set of displaying decoded instructions", "statement": "Displaying a decoded instruction panics if and only if its opcode is sspopchk, c.sspush, c.sspopchk or sfence.vma; each of these is decoded from some input.", "quantifier": "all 2^32 words and both ISAs; all halfwords", "why_tests_cant": "says where panics happen and that there are no others", "anchors": ["src/instruction.rs: impl Display for Instruction", "src/instruction/zicfiss_extension.rs: get_format", "src/instruction/priv_extension.rs: get_format"]}
{"id": "C50", "title": "Overflow checks do not change any result", "statement": "A build without overflow checks (release) gives the same result as a build with them (debug) for decode on u32 and u16, for parse_opcode on both widths, for the operand parsers with any opcode, and for Instruction::try_from(usize), panics included.", "quantifier": "all u32 words, all u16 halfwords, all usize values, both ISAs, all opcodes", "why_tests_cant": "Tests run in one profile; the wrapping shifts and subtractions of the bit helpers could differ on inputs no test uses.", "anchors": ["src/decode.rs: DecodeUtil", "src/decode/inst_32.rs", "src/decode/inst_16.rs", "src/lib.rs: TryFrom<usize>"]}
{"id": "C51", "title": "Operand parsers called with any opcode of their width", "statement": "parse_rd, parse_rs1, parse_rs2 and parse_imm, called on any word with any opcode of the word's width (whether or not the word decodes to it), return Ok with exactly the operand an instruction of that opcode has at that position. The ISA argument affects only parse_imm of slli, srli and srai, and those exactly when bit 25 is set.", "quantifier": "all u32 words with all non-compressed opcodes, all u16 halfwords with all compressed opcodes, both ISAs", "why_tests_cant": "2^32 words times 138 opcodes; tests only call the parsers through decode, with the opcode of the word.", "anchors": ["src/decode.rs: Decode", "src/decode/inst_32.rs", "src/decode/inst_16.rs"]}
{"id": "C52", "title": "Reading a program on either ISA", "statement": "Reading memory instruction by instruction on a chosen ISA (width by the two low bits) returns exactly the program that was laid out, for any program of well-formed instructions of that ISA of either width; it never panics on any memory; on RV64 it equals reading with Instruction::try_from; and a memory that RV32 reads as a program without c.jal is read by RV64 as the same program.", "quantifier": "all programs of any length, all memories of any length, both ISAs", "why_tests_cant": "Programs are unbounded, and the claim about the two ISAs compares two readings of every memory.", "anchors": ["src/decode.rs: Decode", "src/decode/inst_32.rs: decode", "src/decode/inst_16.rs: decode", "src/lib.rs: TryFrom<usize>"]}
{"id": "C53", "title": "Displayed text is one line", "statement": "Whenever displaying an Instruction value does not panic, the text is non-empty and consists of printable ASCII characters only; in particular it has no line break.", "quantifier": "all Instruction values, decoded or built by hand, with operands and immediates of any size", "why_tests_cant": "The fields of Instruction are public, so the values range over far more than decoder outputs.", "anchors": ["src/instruction.rs: impl Display for Instruction"]}
{"id": "C54", "title": "Program listings", "statement": "Printing a decoded program one instruction per line panics exactly when it contains sspopchk, c.sspush, c.sspopchk or sfence.vma; the listing determines the number of instructions and the opcode and shown operands of each; and it determines the whole program where no opcode with a lossy text occurs.", "quantifier": "all lists of decoded instructions of any length", "why_tests_cant": "Injectivity on pairs of programs of unbounded length.", "anchors": ["src/instruction.rs: impl Display for Instruction"]}
{"id": "C55", "title": "Derived comparison and debug text are faithful", "statement": "== on DecodingError, InstFormat, OpcodeKind and Instruction holds exactly for equal values; the {:?} text of an Instruction lists every field, in order, with the opcode name formed from the manuals' mnemonic and decimal operands; two Instruction values have the same {:?} text exactly when they are ==; distinct errors have distinct {:?} texts.", "quantifier": "all pairs of Instruction values, opcodes, formats and errors, decoded or built by hand, with operands of any size", "why_tests_cant": "A comparison or injectivity over pairs of values; the crate's tests rely on == and on {:?} in their messages.", "anchors": ["src/instruction.rs: derive(Debug, PartialEq) on Instruction, OpcodeKind, InstFormat", "src/decode.rs: derive(Debug, PartialEq) on DecodingError", "src/instruction/*_extension.rs, base_i.rs: derive(Debug, PartialEq) on the opcode enums"]}
{"id": "C56", "title": "Displayed text is standard assembly", "statement": "The displayed text of a decoded instruction is the assembly language of the RISC-V manuals for it: mnemonic, then operands in the manuals' order and notation (rd, offset(rs1) for loads, rs2, offset(rs1) for stores, and so on).", "quantifier": "all instructions decoded from any u32 or u16 on either ISA", "why_tests_cant": "It relates the text of every decoded instruction to the assembly syntax; the tests compare a handful of strings.", "anchors": ["src/instruction.rs: impl Display for Instruction", "src/instruction/*_extension.rs, base_i.rs: to_string of opcodes"]}
{"id": "C57", "title": "Memory is recovered from the program", "statement": "If every instruction a sweep meets is an encoding the manuals define, laying the instructions read back out gives the memory swept; so two such memories with the same listing are the same where no opcode with a lossy text occurs. Without that condition two memories can read as the same program.", "quantifier": "all memories of any length and either ISA", "why_tests_cant": "Composition of decoding and encoding over memories of unbounded length.", "anchors": ["src/lib.rs: Decode for u16 and u32", "src/decode.rs: Decode::decode", "src/instruction.rs: impl Display for Instruction"]}
{"id": "C58", "title": "Exactly which errors occur", "statement": "Decoding a u32 returns, over all words, exactly the errors InvalidFunct3, InvalidFunct5, InvalidFunct7, InvalidOpcode and UnknownExtension, with InvalidFunct6 on RV64 only and OnlyRv64Inst on RV32 only; decoding a u16 returns exactly InvalidOpcode and IllegalInstruction, with OnlyRv64Inst on RV32 only. No other variant of DecodingError is ever returned.", "quantifier": "all errors, all u32 and u16, both ISAs", "why_tests_cant": "That an error never occurs is a statement about all words.", "anchors": ["src/decode.rs: DecodingError", "src/decode/inst_32.rs: decode", "src/decode/inst_16.rs: decode"]}
{"id": "C59", "title": "Bit helpers on all arguments", "statement": "slice(end, start) returns the bits end..=start of the receiver and panics exactly when end < start, start is beyond the word or the range is as wide as the word; set(mask) has bit k set exactly when k is listed and the bit of the receiver at that place, counted from the end of the list, is set, and panics exactly when a listed position or the number of positions is out of range; to_signed_nbit(n) is, for n from 1 to 30, the n-bit two's complement number congruent to the argument, and panics for other n.", "quantifier": "all words, ranges, masks of any length and values", "why_tests_cant": "The arguments range over all words and masks of any length; the two ignored doc examples of slice and set are in fact wrong.", "anchors": ["src/decode.rs: DecodeUtil::slice, DecodeUtil::set", "src/decode/inst_32.rs: impl DecodeUtil for u32", "src/decode/inst_16.rs: impl DecodeUtil for u16", "src/decode.rs: DecodeUtil::to_signed_nbit"]}
{"id": "C60", "title": "Running the source text gives the modelled outcome", "statement": "Executing the text of the crate's functions, as a syntax tree under the rules of the Rust subset it uses, gives for decode, parse_opcode, parse_rd, parse_rs1, parse_rs2 and parse_imm of u32 and u16, TryFrom<usize>, get_format and Display (also of the opcodes of each extension), and for the helpers slice, set, to_signed_nbit and parse_extension, exactly the outcome (value, error or panic) that the model computes, with and without overflow checks, Display also when it writes into an arbitrary sink that may refuse; distinct outcomes of the model correspond to distinct results of the run.", "quantifier": "all words, opcodes, instructions, usize values, both ISAs, both build modes and every sufficient call depth", "why_tests_cant": "It equates two programs on every input; tests compare them on samples.", "anchors": ["src/decode/inst_32.rs: impl Decode for u32", "src/decode/inst_16.rs: impl Decode for u16", "src/lib.rs: impl TryFrom<usize> for Instruction", "src/instruction.rs: impl Display for Instruction, OpcodeKind::get_format"]}
{"id": "C61", "title": "What executing the source does in either build", "statement": "Executing the text of decode on any u32 or u16 returns Ok or Err and never panics, with or without overflow checks; executing TryFrom<usize> panics exactly on values too wide for the length selected by their low two bits; executing Display on a decoded instruction panics exactly for sspopchk, c.sspush, c.sspopchk and sfence.vma; all builds (with or without overflow checks, pointers of 16, 32 or 64 bits) give the same results; executing decode on an assembled well-formed instruction returns that instruction.", "quantifier": "all words, usize values, decoded instructions, well-formed instruction values, both ISAs and both build modes", "why_tests_cant": "Each clause ranges over all words or all instruction values and over both build modes.", "anchors": ["src/decode/inst_32.rs: impl Decode for u32", "src/decode/inst_16.rs: impl Decode for u16", "src/lib.rs: impl TryFrom<usize> for Instruction", "src/instruction.rs: impl Display for Instruction"]}
{"id": "C62", "title": "Words are decoded as the manual's instruction listings show them", "statement": "Reading the manual's instruction listings as a table of rows, each a sequence of fixed bits, register fields and immediate fields from the most significant bit down: a u32 that is an instance of the row of an instruction of the ISA decodes to that instruction with exactly the operands that the row shows; likewise for u16, except that c.add to x0 decodes as c.ebreak. For the instructions that the decoder recognises strictly, every word decoded as the instruction is an instance of its row. Rows of different instructions have no common instance.", "quantifier": "all rows of the listings for both ISAs and all words", "why_tests_cant": "Each row has up to 2^25 instances, and the absence of overlaps is a statement about all pairs of rows.", "anchors": ["src/decode/inst_32.rs: impl Decode for u32", "src/decode/inst_16.rs: impl Decode for u16", "src/decode/inst_32/*.rs, src/decode/inst_16/*.rs: parse_opcode, parse_rd, parse_rs1, parse_rs2, parse_imm"]}
{"id": "C63", "title": "Assembling by the instruction listings is inverted by decoding", "statement": "Filling the operands of a well-formed instruction value into the row of its opcode gives a word of the right length that decodes to that value, for 32-bit and compressed instructions; and filling the decoded operands of an instance of a row back into the row gives the word itself, where bits that the row leaves free and the decoder does not report (aq and rl of ssamoswap) are zero.", "quantifier": "all well-formed instruction values, all instances of all rows, both ISAs", "why_tests_cant": "It ranges over every operand combination of every instruction.", "anchors": ["src/decode/inst_32.rs: impl Decode for u32", "src/decode/inst_16.rs: impl Decode for u16"]}
{"id": "C64", "title": "Bit helpers in builds without overflow checks", "statement": "In a build without overflow checks, slice(end, start) panics exactly when end < start and otherwise returns the receiver shifted by start modulo its width, cut to end - start + 1 bits (modulo 2^32); set never panics and has bit k set exactly when some listed position is k modulo 32 and the bit of the receiver at its place, counted from the end of the list modulo 32, is set; to_signed_nbit(n) returns 0 for n = 0, the n-bit two's complement number congruent to the argument for n from 1 to 32, and the argument itself for larger n.", "quantifier": "all words, ranges, masks of any length and values", "why_tests_cant": "Behaviour of arguments outside the intended range is only visible in a release build and for every combination of arguments.", "anchors": ["src/decode.rs: DecodeUtil::slice, DecodeUtil::set", "src/decode/inst_32.rs: impl DecodeUtil for u32", "src/decode/inst_16.rs: impl DecodeUtil for u16", "src/decode.rs: DecodeUtil::to_signed_nbit"]}
{"id": "C65", "title": "Printing into any sink, including one that fails", "statement": "When an instruction is printed into any fmt::Write: if the instruction cannot be printed, the call panics before anything is written; otherwise the text reaches the sink in pieces, the call returns Ok if all pieces are accepted, and after the first refused piece it returns Err and writes nothing more. So a sink that keeps what it takes ends with a prefix of the text, with the whole text if the call returns Ok; a sink that never refuses gets the whole text; and a buffer of n characters suffices exactly when the text has at most n characters.", "quantifier": "all instruction values (decoded or built by hand), all sinks, all sink states", "why_tests_cant": "Sinks are arbitrary user code; tests print into a String, which never fails.", "anchors": ["src/instruction.rs: impl Display for Instruction"]}
{"id": "C66", "title": "Indented debug text", "statement": "{:#?} of an instruction shows the struct with one field per line, indented by four columns, with opcode and present operands on a nested line; it determines the value; and it differs from {:?} only in spaces, line breaks and commas.", "quantifier": "all instruction values", "why_tests_cant": "It ranges over all field values; injectivity is a statement about pairs.", "anchors": ["src/instruction.rs: #[derive(Debug)] struct Instruction", "src/instruction.rs: #[derive(Debug)] enum OpcodeKind, enum InstFormat"]}
{"id": "C67", "title": "The text of the files is the program that is run", "statement": "Lexing and parsing the text of the crate's source files (compiled without its tests), with names resolved to the functions they mean, gives exactly the functions that C60 and C61 run and the types they are declared with; the model's enumerations, opcodes and instructions are exactly the values those declarations admit; running the functions read from the text decodes, converts and prints as the model does. The reading groups expressions of any size by Rust's operator precedence and reads numbers of any size in base 2, 10 and 16.", "quantifier": "all lines of the 25 files; all expressions of numbers, names, operators, casts, fields and method calls; all values of the declared types; all words, usize values, instructions, ISAs, build modes and sufficient call depths", "why_tests_cant": "Tests exercise the compiled program on samples; this ties every line of the text to the program the theorems are about.", "anchors": ["src/lib.rs", "src/decode.rs", "src/decode/*.rs", "src/instruction.rs", "src/instruction/*.rs: enum declarations, Display, get_format"]}
{"id": "C68", "title": "Derived Debug and PartialEq follow the declarations", "statement": "For every error, format, opcode and instruction, what `{:?}`, `{:#?}` and `==` give is what the general rule for derived code gives from the declaration of its type, with every name spelled as in the source files; two results of decoding are the same exactly if `==` says so, exactly if their `{:?}` texts are equal, and exactly if their `{:#?}` texts are equal; every run of `decode` returns a value whose `{:?}` text is `Ok(...)` or `Err(...)` around the text of the instruction or error.", "quantifier": "all values of the declared types; all pairs of results; all words, ISAs, build modes and sufficient call depths", "why_tests_cant": "A test compares particular values; that comparison and debug output never confuse two results needs all pairs.", "anchors": ["src/instruction.rs: Instruction, InstFormat, OpcodeKind", "src/instruction/*_extension.rs: enum declarations", "src/decode.rs: DecodingError"]}
{"id": "C69", "title": "The properties determine the crate's behaviour", "statement": "Any set of functions with the crate's signatures that has the listed properties (acceptance, operands, errors, formats, parsers, conversion, texts, comparison, bit helpers) returns the same result as this crate for every function and every input, panics included; and this crate has them. So every program that differs on a single input breaks one of the properties.", "quantifier": "all functions with the signatures of decode, parse_*, try_from, get_format, Display, Debug under any flags, ==, slice, set and to_signed_nbit, and all their inputs", "why_tests_cant": "No finite set of tests distinguishes a program from all others with the same signatures.", "anchors": ["src/lib.rs: TryFrom<usize>", "src/decode.rs: Decode, DecodeUtil, to_signed_nbit", "src/decode/inst_32.rs", "src/decode/inst_16.rs", "src/instruction.rs: Instruction, OpcodeKind, InstFormat"]}
{"id": "C70", "title": "Instructions print the way the documentation of their format shows", "statement": "Every opcode shown in the documentation of InstFormat has the format it is shown under, and every decoded instruction of it prints the shown line with its own operands put in (names for registers, numbers that denote the immediate, memory operands as offset(base)). False for 2 of the 34 lines (format) and for 12 of the opcodes shown (text): lw, sw, beq, jal, c.addi4spn, c.lw, c.sw, c.beqz, c.srai, sc.w, lr.w, sspopchk.", "quantifier": "all lines of the documentation of InstFormat and all decoded instructions of their opcodes", "why_tests_cant": "The documented lines are marked `ignore`, so no doc test runs them, and the claim is about every operand value.", "anchors": ["src/instruction.rs: InstFormat (documentation)", "src/instruction.rs: Display for Instruction", "src/instruction.rs: Opcode::get_format"]}
{"id": "C71", "title": "Debug output under formatter flags", "statement": "For every setting of the formatter (fill, alignment, +, #, 0, width, precision, x?/X?) the debug output of an instruction has the names as in {:?} or {:#?}, and its numbers and truth value are laid out by the flags: signs and 0x in front, zeros between head and digits, fill characters on the side the alignment asks for, immediates as 32-bit two's complement in hexadecimal. Only # affects opcodes; no flag affects formats and errors. Without width, precision, + and hexadecimal digits the output is that of {:?} or {:#?}. The output determines the instruction value unless the fill character is alphanumeric or one of _()+- or the precision is 0.", "quantifier": "all formatter settings and all instruction values (immediates in the range of i32 for the last part)", "why_tests_cant": "The settings, the widths and the values are unbounded, and injectivity is about pairs of values.", "anchors": ["src/instruction.rs: derive(Debug) for Instruction, InstFormat, OpcodeKind", "src/decode.rs: derive(Debug) for DecodingError"]}
{"id": "C72", "title": "Exactly which texts are assembly language or as documented", "statement": "A decoded instruction that prints, prints assembly language for itself if and only if its opcode always does (C56), or it is a jal with a non-negative offset, a store (also compressed) whose rs1 and rs2 are the same register, or a c.addi4spn with an offset below 10. It prints as the documentation of the formats shows if and only if its opcode always does (C70), or it is a jal with a non-negative offset, a sw or c.sw whose two registers are the same, or a c.addi4spn with an offset below 10.", "quantifier": "all decoded instructions (both widths, both ISAs) that print, and all lines of the documentation", "why_tests_cant": "The negative direction is about every decoded instruction: a test shows one text that is wrong, not that all texts of the other opcodes are.", "anchors": ["src/instruction.rs: Display for Instruction", "src/instruction.rs: InstFormat documentation"]}
{"id": "C73", "title": "Targets with 16-, 32- and 64-bit pointers behave alike", "statement": "Executing decode, the operand parsers and Display gives the same on targets whose usize has 16, 32 or 64 bits, with or without overflow checks; every register or CSR number in a decoded instruction fits in usize on each of them; TryFrom<usize> never panics where usize has 16 bits, and where it has 32 bits it panics exactly on values from 2^16 on whose low two bits are not both set.", "quantifier": "all words, ISAs, opcodes, instruction values, usize values of the target, pointer widths and build modes", "why_tests_cant": "Tests run on one target, usually with 64-bit pointers; the claim is about the others, for all inputs.", "anchors": ["src/decode/*.rs: parse_rd, parse_rs1, parse_rs2 (`as usize`)", "src/lib.rs: impl TryFrom<usize> for Instruction", "src/instruction.rs: Instruction"]}
{"id": "C74", "title": "Readings from different places meet at the first compressed instruction", "statement": "Reading the same memory instruction by instruction from two places: the earlier reading reaches the start of the later one or the halfword behind it. Two readings one halfword apart meet right behind the first compressed instruction in either of them, have read only 32-bit instructions before, and agree from there to the end; if neither contains a compressed instruction they never meet. Memories of every length exist that can be read from both places without meeting.", "quantifier": "all memories of any length, both ISAs, all starting places", "why_tests_cant": "Statement about all memories and pairs of starting places, proved by induction over the memory; tests read a few short programs.", "anchors": ["src/decode/inst_32.rs: decode", "src/decode/inst_16.rs: decode", "src/lib.rs: Decode"]}
{"id": "C75", "title": "What a passing unit test of the crate establishes", "statement": "The helpers the crate's unit tests are written with (test_32, test_16 and their wrappers for one ISA) either return or panic. test_32(isa, w, op, rd, rs1, rs2, imm) returns exactly when w.decode(isa) is Ok of an instruction with that opcode and those four operands, and panics otherwise; likewise test_16. So at most one expectation passes for a word. The closure of the test zicfiss_16 is weaker: because matches!(&op_16, op) binds a new variable, it passes exactly when the operands agree, whatever opcode it is told to expect.", "quantifier": "every word and halfword, both ISAs, every expected opcode and every expected operand values", "why_tests_cant": "The helpers are what the tests are made of: a helper that compares too little makes every test pass, and no test run shows it. The theorem is about all words and all expectations, passing and failing.", "anchors": ["src/decode/inst_32.rs: test_32, test_32_in_rv32, test_32_in_rv64", "src/decode/inst_16.rs: test_16, test_16_in_rv32, test_16_in_rv64", "src/decode/zicfiss_extension.rs: test_zicfiss::zicfiss_16"]}
{"id": "C76", "title": "The test code in the files does what is said of it", "statement": "Reading the text of the source files as compiled for the tests gives the same types, the same functions, and the test helpers and tests besides. Compiling for the tests changes no run of the crate's functions, and in any program of the subset a run that ends does not depend on how deeply calls may nest. Running the helpers read from the text (test_32, test_16, their wrappers, and the closure of the test zicfiss_16) gives exactly the outcome the model of them gives, so an expectation written with them holds exactly if the word decodes to an instruction with that opcode and those operands. The tests are the 13 functions without parameters, and each of them returns without panicking.", "quantifier": "all lines of the 25 files; every word, halfword, ISA, expected opcode and operands; with and without overflow checks, every pointer width, every sufficient call depth; for the depth statement, every program, function and arguments", "why_tests_cant": "A test run reports that tests pass, not what passing means; here the meaning of the helpers is settled for all arguments, passing and failing, from the text itself.", "anchors": ["src/decode/inst_32.rs: test_32, test_32_in_rv32, test_32_in_rv64", "src/decode/inst_16.rs: test_16, test_16_in_rv32, test_16_in_rv64", "src/decode/*.rs, src/lib.rs: modules marked cfg(test)"]}
{"id": "C77", "title": "The leftover opcode file agrees with the crate but for fence and mulhsu", "statement": "The source tree holds an older opcode list that is not compiled. Each of its entries stands for exactly one of today's opcodes, and today's opcodes without an entry are exactly those of Zicntr, Zicboz and Zicfiss. The operand formats are the same throughout. The extension is the same except for fence, which was in the base set. The names in the older list are the manual's throughout (compressed ones with a capital C), and today's names differ from them exactly for fence and mulhsu.", "quantifier": "all entries of the older list and all opcodes", "why_tests_cant": "The file is not part of the crate, so nothing compiles or runs it; that the two wrong names of C34 came in after it, and nothing else changed, can only be seen by comparing the tables.", "anchors": ["src/instruction/opcode.rs: OpcodeKind::get_format, get_extension, to_string", "src/instruction.rs: OpcodeKind::get_format, Display for OpcodeKind"]}
{"id": "C78", "title": "Exactly 29 branches of the decoder are dead code", "statement": "Number the branches of the crate's functions: match arms, sides of an if, closures given to unwrap_or_else; there are 705. For 29 of them (27 error arms, the arm for compressed words in the 32-bit decoder and one unreachable!()), any other code may be put in their place, in several at once, and no call a user of the crate can make (decoding, the field parsers, the conversion, printing, get_format) gives another result, in any build. For each of the other 676 there is a public call that ends differently with some other code in that place.", "quantifier": "all branches of the crate's functions, all replacement code, all public calls with all arguments, all builds (for the 676 live branches: some call, in the debug build on a 64-bit machine)", "why_tests_cant": "That an arm is never reached is a statement about all words; a coverage run that misses it shows nothing, and the unreachable!() in the compressed decoder would abort the caller if it could be reached.", "anchors": ["src/decode.rs: Decode", "src/decode/inst_32.rs: u32::parse_opcode, parse_extension", "src/decode/inst_16.rs: u16::parse_opcode", "src/decode/c_extension.rs: quadrant1, quadrant2", "src/decode/base_i.rs: parse_opcode", "src/instruction.rs: Display for Instruction"]}
{"id": "C79", "title": "What the crate's own tests can see", "statement": "Of the 705 branches of the crate's functions (C78), 471 are invisible to its tests: put any code in them, in all of them at once, and each of the 13 tests still passes, in every build. Each of the other 234 is seen by a test, which panics if unreachable!() is put there. Of the 471 invisible branches 29 are dead and 442 are not: with some code in such a branch a user observes a difference though all tests pass.", "quantifier": "all branches of the crate's functions, all replacement code, all tests, all builds (for the seen branches: the debug build on a 64-bit machine)", "why_tests_cant": "It is a statement about the tests: about what all programs that pass them may do.", "anchors": ["src/lib.rs: tests", "src/decode/base_i.rs: test_basei", "src/decode/c_extension.rs: test_c", "src/decode/a_extension.rs: test_a", "src/instruction.rs: Display for Instruction"]}
{"id": "C80", "title": "The documentation's code examples", "statement": "The code examples in the documentation hold, for the receiver they show and, where they explain a helper, as a rule for all receivers. False for two of the five: slice(5, 2) is never the documented value, whatever the receiver; and set does not take bit j of the result from the position listed j places before the last, as its example shows, except for lists that are their own inverse: it moves bits the other way round.", "quantifier": "all code blocks of the documentation; all receivers of slice(5, 2); all receivers and all lists of at most 32 positions for set", "why_tests_cant": "The two wrong examples are marked `ignore` because the helpers are private, so no doc test runs them.", "anchors": ["src/lib.rs: crate documentation", "src/decode.rs: Decode (documentation)", "src/decode.rs: DecodeUtil::slice", "src/decode.rs: DecodeUtil::set"]}
{"id": "C81", "title": "Errors mean what their documentation says", "statement": "Each error is returned for the reason its documentation gives. InvalidFunct3, 5, 6 and 7: with another value in the field named, and no other bit changed, the word decodes under the same ISA or is one that exists only on RV64. UnknownExtension: no word with the same opcode and extension field decodes. InvalidOpcode: no word with the same opcode decodes. OnlyRv64Inst: the ISA is RV32 and the same bits decode on RV64. IllegalInstruction: a halfword of zeros. Not16BitInst: a 32-bit instruction was expected and the instruction is compressed; Not32BitInst: the reverse. False for three: the documentation of Not16BitInst and that of Not32BitInst are exchanged, and InvalidOpcode is also returned for words and halfwords whose opcode is known.", "quantifier": "all words and halfwords, both ISAs, all opcodes given to the operand parsers, all variants of DecodingError", "why_tests_cant": "Whether changing one field would repair a word ranges over all words and all values of the field, and no test looks at the documentation of the errors.", "anchors": ["src/decode.rs: DecodingError (documentation)", "src/decode/inst_32.rs: decode, parse_rd, parse_rs1, parse_rs2, parse_imm", "src/decode/inst_16.rs: decode, parse_rd, parse_rs1, parse_rs2, parse_imm"]}
{"id": "C82", "title": "Instructions of unsupported extensions are refused", "statement": "A word or halfword that the manuals assign to an instruction of an extension the crate does not support (B, Zbc, Zbkb, Zbkx, Zicond, Zacas, Zawrs, Zicbom, Zcb, Zcmp, Zcmt, Zcmop, F, D, Q, V, H, Svinval) decodes to an error. False for 32 of the 122 entries listed: sh1add, sh2add, sh3add, andn, orn, xnor, min, max, maxu, zext.h (RV32), rol, bclr, binv, bset, clmul, clmulr, clmulh, pack, packh, xperm4, xperm8 and czero.nez are taken for sll, slt, sltu, xor, or, and; slli.uw, clzw, ctzw and cpopw for slliw; c.mop.n for c.lui.", "quantifier": "all words and halfwords of the listed instructions, whatever their operands, in the ISAs that have them", "why_tests_cant": "No test contains an instruction of another extension, and each has up to 2^15 words.", "anchors": ["README.md: Support", "src/decode/inst_32.rs: decode", "src/decode/inst_16.rs: decode", "src/decode/base_i.rs: parse_opcode", "src/decode/c_extension.rs: parse_opcode"]}
{"id": "C83", "title": "Texts of instructions are short", "statement": "The assembly text of a decoded instruction has at most 28 characters, so a writer with room for 28 takes the text of every decoded instruction that has one and a smaller one does not. The text of any instruction value has at most 51 characters on a 64-bit target and 41 on a 32-bit target, the debug text of a decoded instruction at most 140, and its indented debug text at most 239. All the bounds are attained.", "quantifier": "all decoded instructions; for the second part all values of Instruction with fields that the target can hold; all buffer sizes", "why_tests_cant": "A test sees the length of one text; the maximum is over all words, and for the second part over all values of a public struct.", "anchors": ["src/instruction.rs: Instruction, impl Display for Instruction, reg2str", "src/instruction/base_i_opcode.rs: impl Display", "src/instruction/zicfiss_opcode.rs: impl Display"]}
{"id": "C84", "title": "The work is bounded", "statement": "Decoding a word, whatever it is, takes at most 1388 steps of the source text (1469 for a halfword, 1481 for the conversion from usize, however large the number), showing any instruction value takes at most 1721, and each parser has its own bound. Placing bits takes at most 8 or 9 steps for each bit and 7 more. A step is the evaluation of one expression, statement, part of a pattern or part of a format string, a round of a loop or a call.", "quantifier": "all words, halfwords, numbers, instruction values and ISAs, on all targets, with overflow checks and without, however deep calls may nest", "why_tests_cant": "A test measures the time of the inputs it contains; a bound for 2^32 words and all instruction values is a statement about every run.", "anchors": ["src/decode.rs: Decode", "src/decode/inst_32.rs: decode, parse_opcode, parse_imm, set", "src/decode/inst_16.rs: decode, parse_opcode, parse_imm, set", "src/instruction.rs: impl TryFrom<usize> for Instruction, impl Display for Instruction"]}
{"id": "C85", "title": "The crate is well typed, and its numbers stay in range", "statement": "Every function of the crate, public or not, called with arguments of its declared parameter types, returns a value of its declared result type or panics. It never does anything without a meaning: every match has an arm for the value it meets, every operator gets operands of one type, every method, field and variable exists. All numbers that are passed, returned or computed on the way are in the range of their types, also where usize has 16 or 32 bits. A type that implements a trait of the crate has every function the trait asks for, with the type the trait declares.", "quantifier": "all functions of the crate, all arguments of their parameter types (arrays of any length), with overflow checks and without, on targets of all widths, however deep calls may nest; and, in general, all expressions of the modelled part of Rust", "why_tests_cant": "A test runs one path with one set of values; this is about all paths of all functions, including those no public function takes.", "anchors": ["src/decode.rs: Decode, DecodeUtil, only_rv64", "src/decode/inst_16.rs", "src/decode/inst_32.rs", "src/decode/c_extension.rs: bit_16", "src/decode/base_i.rs: bit_32", "src/instruction.rs: Instruction, OpcodeKind, reg2str"]}
{"id": "C86", "title": "How many words are accepted, and how many wrongly", "statement": "Of the 2^32 words, decoding accepts exactly 274666531 on RV32 and 297604131 on RV64; 54433563 and 58623867 of these are reported as an opcode that the manuals do not assign them to. Of the 2^16 halfwords it accepts 30463 and 38783, of which 1669 and 261 wrongly. For every opcode the number of words decoded as it, and how many of them wrongly, is as tabulated. No 32-bit word that the manuals assign to a supported opcode is decoded as anything else or rejected; exactly 31 halfwords are.", "quantifier": "all 2^32 words and all 2^16 halfwords, both instruction sets, all opcodes", "why_tests_cant": "The numbers are about all words at once; a sample bounds them at best statistically, and there is no reference decoder here to compare with.", "anchors": ["src/decode/inst_32.rs: decode, parse_opcode", "src/decode/inst_16.rs: decode, parse_opcode", "src/decode/base_i.rs: parse_opcode", "src/decode/c_extension.rs: parse_opcode"]}
{"id": "C87", "title": "Every name means what the scoping rules of the language say", "statement": "Every path that is written in the crate's functions, declarations and tests resolves, by the language's rules for modules, imports, local imports and privacy, to exactly one thing, and this is the function, type or variant that the formal reading of the text uses; names that resolve to nothing are local variables, fields or parameters that coincide with no function and no type. No two types or traits have the same name. The modules that are declared are exactly those whose files were read.", "quantifier": "all 25 files, all modules including the test modules, all paths written in them (some 2600)", "why_tests_cant": "A test runs the functions that the compiler picked; it does not show that a reader of the text, or a model, picked the same ones among the many functions called parse_opcode, parse_rd or parse_imm.", "anchors": ["src/lib.rs: mod decode, mod instruction, pub use", "src/decode.rs: mod, use", "src/instruction.rs: mod, use", "src/decode/inst_32.rs: use super", "src/decode/inst_16.rs: use super"]}
{"id": "C88", "title": "What other crates can use", "statement": "Another crate can name exactly the type Isa, the trait Decode, DecodingError, Instruction, OpcodeKind, InstFormat and the ten opcode enums, and can call exactly 26 functions, apart from derived ones: decode and the five parse functions of u16 and u32, try_from and the Display of Instruction, the Display and get_format of OpcodeKind, and the Display of the ten opcode enums. The types of these functions, the fields of an instruction and what the public enums hold mention no type that it cannot name.", "quantifier": "all declarations of the crate", "why_tests_cant": "The crate's tests are inside the crate and can reach private items; that something is not reachable from outside shows only as a compile error in code that nobody wrote.", "anchors": ["src/lib.rs: mod decode, pub mod, pub use", "src/decode.rs: Decode, DecodeUtil, only_rv64", "src/instruction.rs: pub use, Opcode, reg2str, Extensions"]}
{"id": "C89", "title": "Everything that another crate can make the public functions do", "statement": "For every public function and all arguments of its declared types, including opcodes and instructions put together by hand, a call does what the model says, the same in every build and on every target, and panics in exactly these cases: try_from of a number too large for the width its last two bits ask for; printing an instruction whose format asks for an operand it lacks or for a register above 31; asking a u32 for an operand of c.sspush or c.sspopchk; asking a u16 for rd of a 32-bit shadow-stack opcode. In all other cases it returns a value of its declared type.", "quantifier": "all 26 public functions, all values of the argument types, debug and release builds, 16-, 32- and 64-bit targets", "why_tests_cant": "The arguments are all words, opcodes and instruction values at once, among them combinations that no decoder produces.", "anchors": ["src/lib.rs: pub use", "src/decode.rs: Decode", "src/decode/inst_32.rs: parse_rd, parse_rs1, parse_rs2, parse_imm", "src/decode/inst_16.rs: parse_rd, parse_rs1, parse_rs2, parse_imm", "src/instruction.rs: TryFrom, Display, OpcodeKind"]}
{"id": "C90", "title": "What the crate needs from outside itself", "statement": "Apart from its tests, the crate names nothing from outside itself but Display, Formatter and Result of core::fmt, the types and constructors Option, Some, None, Result, Ok, Err and the trait TryFrom of the prelude, and the primitive types u8, u16, u32, usize, i32, bool and str. No file contains a keyword for unsafe code, global variables, loops other than for, threads of control or dynamic calls. So the crate has no state between calls, no heap, no input or output, and every function's result depends on its arguments only.", "quantifier": "all mentions of a name in all files of the library, under all use declarations in scope", "why_tests_cant": "A test cannot observe that something is not used anywhere in the text.", "anchors": ["src/lib.rs: no_std", "src/decode.rs", "src/instruction.rs", "src/decode/inst_32.rs", "src/decode/inst_16.rs"]}
{"id": "C91", "title": "The text of the crate has one reading", "statement": "A grammar says which sequences of tokens are types, patterns, expressions, blocks, items and files, what each stands for, how strongly each operator binds and where an expression ends, without saying how to find it out; it also says how a format string falls into texts and holes, and which argument each hole shows and how. The reader used for C60 and C67 takes a piece of text for a phrase only if the grammar says so; it reads every phrase of the grammar, whatever may follow it; and no sequence of tokens is a phrase of one kind in two ways. Files make up a crate of the grammar just if the reader reads them, given room to nest, and they make up at most one. The files of this crate make up one, compiled with and without tests: the programs that C60, C67 and C76 are about.", "quantifier": "all sequences of tokens, all kinds of phrases, all names in scope, all depths of nesting; all lists of files", "why_tests_cant": "That a text has no second reading, and that a reader misreads no text at all, are statements about all texts.", "anchors": ["src/lib.rs", "src/decode.rs", "src/decode/inst_32.rs", "src/decode/inst_16.rs", "src/instruction.rs", "src/instruction/opcode.rs"]}
{"id": "C92", "title": "The characters of the files have one reading", "statement": "Lexical rules say which characters are a word, a number, a string, a lifetime or punctuation and what token they are, that spaces and comments separate tokens, and that a token is never shorter than it could be by the rules of the whole of Rust, including the tokens this crate does not use. The lexer cuts every line of any length as these rules say and finds every way of cutting that they allow; there is at most one. Different words are different tokens. So the characters of the crate's files stand for one program, with and without its tests: the ones that C60, C67 and C76 are about.", "quantifier": "all lines of all lengths over all characters; all files", "why_tests_cant": "That no text is cut wrongly or in two ways is a statement about all texts.", "anchors": ["src/lib.rs", "src/decode.rs", "src/decode/inst_32.rs", "src/decode/inst_16.rs", "src/instruction.rs", "src/instruction/opcode.rs"]}
{"id": "C93", "title": "Going by types gives the same results as going by values", "statement": "The reading of the source used for C60 settles by values what Rust settles by types: which type an unsuffixed literal has, which function a method call means, and which `fmt` shows an enum in `write!`. Typing rules say what it is for an expression to have a type and what it looks like once every literal has its type and every method call and every shown enum names its function; any types that agree with the declared types of functions, parameters, fields and variants will do. The crate can be written out like this. However it is written out, a second evaluator, which never changes the type of a value and is stuck on a literal without a type, on a method call and on showing an enum, gives the same outcome for every function of the crate on all arguments of its types, in all builds; in particular it decodes every word and prints every instruction as the model does.", "quantifier": "all ways to write out the types, all functions of the crate, all arguments of their types, all builds; for the general statement all programs", "why_tests_cant": "Literals and method calls are settled at compile time; that all runs of all functions agree with any legal choice of types is beyond running examples.", "anchors": ["src/decode.rs", "src/decode/inst_32.rs", "src/decode/inst_16.rs", "src/instruction.rs", "src/lib.rs"]}
{"id": "C94", "title": "What the documentation's examples check", "statement": "rustdoc runs three of the documentation's examples. Read from the text and run against any crate in the place of this one: the example of the crate runs to its end whatever the crate does, because it declares a function and never calls it; that of DecodingError runs to its end exactly if decoding each of its two words returns an instruction or the error shown, so it does not say that they are errors; that of Decode runs to its end exactly if decoding its word returns at all. So a crate whose decode returns the same instruction for every word passes all three. With this crate all of them run to their end, and the program of README.md prints what README.md says; with any other word and ISA in it, that program prints the text of the instruction if the word is an encoding of addi and panics otherwise. No program that is read, whatever its text, names a type by a name that is not public; the two examples that are not run could not be compiled.", "quantifier": "all crates in the place of this one; all words and both ISAs in the program of README.md; all texts of programs; all builds", "why_tests_cant": "A passing documentation test does not say what it would have let through.", "anchors": ["src/lib.rs: crate documentation", "src/decode.rs: DecodingError, Decode (documentation)", "README.md: Usage"]}
{"id": "C95", "title": "Programs that use the crate", "statement": "Take any program whose functions pass the type checker and call only the public functions of the crate and functions of the program. Each of its functions, called with arguments of its types, panics (by itself or because the stack overflows) or returns a value of its type, and does the same whichever way the crate was built: with or without overflow checks, and with its functions evaluated by values or by types. More generally the program does the same with any two libraries that do the same for arguments of the declared types, so replacing the crate by such a library cannot be noticed. A program that calls a private function of the crate does not pass the checker.", "quantifier": "all programs over the crate's types, of any number of functions of any size; all arguments of their types; all builds of the crate and of the program; all pairs of libraries that agree on arguments of the declared types", "why_tests_cant": "There are infinitely many programs that can be written against a crate; tests run some.", "anchors": ["src/lib.rs", "src/decode.rs: Decode", "src/instruction.rs: Instruction"]}
{"id": "C96", "title": "How many words are rejected, and why", "statement": "For every error, the number of the 2^32 words and of the 2^16 halfwords for which decoding returns it is exactly as tabulated; the totals are 4020300765 words and 35073 halfwords on RV32, 3997363165 and 26753 on RV64. Together with the numbers of words accepted as each opcode these make up all words. RV64 rejects no word that RV32 accepts. Of the words that RV32 rejects, RV64 accepts exactly those that RV32 rejects with OnlyRv64Inst (22839296 words, 8320 halfwords) and 98304 shifts by 32 or more, which RV32 rejects with InvalidFunct7.", "quantifier": "all 2^32 words and all 2^16 halfwords, both instruction sets, all errors", "why_tests_cant": "The numbers are about all words at once; a sample of words gives estimates, and misses errors that few words cause (one halfword in 65536 is IllegalInstruction).", "anchors": ["src/decode/inst_32.rs: decode, parse_opcode", "src/decode/inst_16.rs: decode, parse_opcode", "src/decode/base_i.rs: parse_opcode", "src/decode.rs: DecodingError"]}
{"id": "C97", "title": "How many different instructions are decoded", "statement": "The 32-bit words decode to exactly 220167462 different instructions on RV32 and 238783782 on RV64, the halfwords to 30432 and 38752: the instructions that some word decodes to are the members of a list of that length without repetitions. The same holds for each opcode with the number tabulated for it. So on RV32 about one accepted word in five only repeats the instruction of another word.", "quantifier": "all 2^32 words and all 2^16 halfwords, both instruction sets, all opcodes; all instructions that are decoded", "why_tests_cant": "Whether two words give the same instruction is a question about all pairs of words.", "anchors": ["src/decode/inst_32.rs: decode", "src/decode/inst_16.rs: decode", "src/instruction.rs: Instruction"]}
{"id": "C98", "title": "How many different texts are printed", "statement": "Printing the instructions that 32-bit words decode to gives exactly 214893831 different texts on RV32 and 232330503 on RV64; for halfwords they are 30367 and 38687: the texts printed for some word are the members of a list of that length without repetitions. The same holds for each opcode with the number tabulated for it. No text is printed both for a word and for a halfword. So on RV64 there are over six million more instructions than texts.", "quantifier": "all 2^32 words and all 2^16 halfwords, both instruction sets, all opcodes; all texts", "why_tests_cant": "Whether two instructions are printed alike is a question about all pairs of decoded words.", "anchors": ["src/instruction.rs: Instruction, Display", "src/decode/inst_32.rs: decode", "src/decode/inst_16.rs: decode"]}
{"id": "C99", "title": "How many memories are programs", "statement": "Let a and b be the numbers of halfwords and of words that are accepted, and let s(0) = 1, s(1) = a, s(n+2) = a s(n+1) + b s(n). For every n exactly s(n) of the memories of n halfwords are read, instruction after instruction, as programs without remainder. With the numbers of different instructions (C97) in place of a and b the same formula gives the number of different programs read from memories of n halfwords, and with the numbers of different texts (C98) the number of different listings. The accepted part shrinks exponentially: s(n) is at most 45347^n of 65536^n on RV64 and 37741^n on RV32, and hardly less.", "quantifier": "all lengths n; all memories of n halfwords, all programs and all texts; both instruction sets", "why_tests_cant": "There are 65536^n memories of each length, and infinitely many lengths.", "anchors": ["src/decode.rs: Decode::decode", "src/decode/inst_32.rs: decode", "src/decode/inst_16.rs: decode", "src/instruction.rs: Display"]}
{"id": "C100", "title": "What a program for RV32 is on RV64", "statement": "Whatever memory the RV32 decoder reads as a program, the RV64 decoder reads as a program of as many instructions with the same remainder; the instructions are equal in every place but those of c.jal, where RV64 has c.addiw. For every n exactly s(n) of the memories of n halfwords are the same program on both, where s(0) = 1, s(1) = 28415 and s(n+2) = 28415 s(n+1) + 274666531 s(n).", "quantifier": "all memories of any length; all lengths n", "why_tests_cant": "There are 65536^n memories of each length, and infinitely many lengths.", "anchors": ["src/decode.rs: Decode::decode", "src/decode/inst_32.rs: decode", "src/decode/inst_16.rs: decode", "src/decode/c_extension.rs: parse_opcode"]}
{"id": "C101", "title": "How many memories are rejected with each error", "statement": "For every length n, every instruction set and every error, the memories of n halfwords in which reading stops with that error number exactly f(n), where f(0) = 0, f(1) = c and f(n+2) = a f(n+1) + b f(n) + c 65536^(n+1) + d 65536^n; a and b are the numbers of accepted halfwords and words, and c and d those of the halfwords and words at which reading stops with that error. The memories that end in the first half of a word number g(n), by the same recurrence with g(1) = 16384 and c = d = 0. Together with the programs of C99 these are all 65536^n memories.", "quantifier": "all lengths n; both instruction sets; every error", "why_tests_cant": "There are 65536^n memories of each length, and infinitely many lengths.", "anchors": ["src/decode.rs: Decode::decode", "src/decode.rs: DecodingError", "src/decode/inst_32.rs: decode", "src/decode/inst_16.rs: decode"]}
{"id": "C102", "title": "How many words each instruction has", "statement": "For every instruction that some 32-bit word is decoded as, the number of the 2^32 words decoded as exactly that instruction depends on the opcode only: 1024 for ecall, ebreak and sspush, 128 for slliw, 127 for sll, slt, sltu, xor, or and and, 32 for lr.w, lr.d, sspopchk, sfence.vma and the counter reads, 8 for jalr, 4 for ssamoswap.w and ssamoswap.d, 2 for sllw, 1 for all others. Of the halfwords, 32 give c.ebreak and each other instruction has one. So the words of each opcode are its instructions times this number.", "quantifier": "all instructions decoded from any word or halfword, on both instruction sets", "why_tests_cant": "Millions of instructions, each to be compared with all 2^32 words.", "anchors": ["src/decode.rs: Decode::decode", "src/decode/inst_32.rs: decode", "src/decode/inst_16.rs: decode", "src/decode/base_i.rs: parse_opcode"]}
{"id": "C103", "title": "How many memories each program has", "statement": "For every program that some memory is read as, of any length, the number of memories read as exactly that program is the product, over its instructions, of the numbers of words each of them has (C102). So a program has only one memory if and only if none of its instructions is one of those with ignored bits.", "quantifier": "all programs of any length read from memories of any length, on both instruction sets", "why_tests_cant": "There are infinitely many programs, each to be compared with all memories.", "anchors": ["src/decode.rs: Decode::decode", "src/decode/inst_32.rs: decode", "src/decode/inst_16.rs: decode"]}
