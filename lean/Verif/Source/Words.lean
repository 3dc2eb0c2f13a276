import Verif.Source.Syntax
/-!
# The names of the source, by spelling

Generated by tools/text.py; do not edit.
-/

set_option linter.constructorNameAsVariable false

namespace Raki.Source

/-- Keywords, and the names of macros and library functions the parser knows. -/
inductive Kw where
  | «fn» | «let» | «mut» | «if» | «else» | «match» | «return» | use | mod | «type» | enum | struct
  | trait | impl | «for» | «in» | pub | «as» | «true» | «false» | Self | assert | unreachable | panic
  | write | f | unwrap | expect | into | pow | iter | rev | enumerate | «from» | derive | Copy | Clone
  | Debug | PartialEq | cfg | test | assert_eq | assert_ne | matches | unwrap_or_else | std | Location
  | caller

/-- What a word stands for. -/
inductive Word where
  | kw (k : Kw)
  | id (i : Id)

/-- A search tree. -/
inductive Tree where
  | leaf
  | node (l : Tree) (k : Nat) (v : Word) (r : Tree)

/-- Look a number up. -/
def Tree.find : Tree → Nat → Option Word
  | .leaf, _ => none
  | .node l k v r, n => match Nat.beq n k with
    | true => some v
    | false => match Nat.blt n k with
      | true => l.find n
      | false => r.find n

/-- The number of entries. -/
def Tree.size : Tree → Nat
  | .leaf => 0
  | .node l _ _ r => l.size + 1 + r.size

/-- The words with a meaning, spelled out. -/
def spelling : List (String × Word) :=
  [
    ("fn", .kw .«fn»), ("let", .kw .«let»), ("mut", .kw .«mut»), ("if", .kw .«if»), ("else", .kw .«else»),
    ("match", .kw .«match»), ("return", .kw .«return»), ("use", .kw .use), ("mod", .kw .mod),
    ("type", .kw .«type»), ("enum", .kw .enum), ("struct", .kw .struct), ("trait", .kw .trait),
    ("impl", .kw .impl), ("for", .kw .«for»), ("in", .kw .«in»), ("pub", .kw .pub), ("as", .kw .«as»),
    ("true", .kw .«true»), ("false", .kw .«false»), ("Self", .kw .Self), ("assert", .kw .assert),
    ("unreachable", .kw .unreachable), ("panic", .kw .panic), ("write", .kw .write), ("f", .kw .f),
    ("unwrap", .kw .unwrap), ("expect", .kw .expect), ("into", .kw .into), ("pow", .kw .pow),
    ("iter", .kw .iter), ("rev", .kw .rev), ("enumerate", .kw .enumerate), ("from", .kw .«from»),
    ("derive", .kw .derive), ("Copy", .kw .Copy), ("Clone", .kw .Clone), ("Debug", .kw .Debug),
    ("PartialEq", .kw .PartialEq), ("cfg", .kw .cfg), ("test", .kw .test), ("assert_eq", .kw .assert_eq),
    ("assert_ne", .kw .assert_ne), ("matches", .kw .matches), ("unwrap_or_else", .kw .unwrap_or_else),
    ("std", .kw .std), ("Location", .kw .Location), ("caller", .kw .caller), ("inst", .id .inst),
    ("decode", .id .decode), ("Isa", .id .Isa), ("Rv64", .id .Rv64), ("Instruction", .id .Instruction),
    ("try_from", .id .try_from), ("Result", .id .Result), ("Ok", .id .Ok),
    ("is_compressed", .id .is_compressed), ("inst_format", .id .inst_format),
    ("InstFormat", .id .InstFormat), ("JFormat", .id .JFormat), ("imm", .id .imm), ("Option", .id .Option),
    ("Some", .id .Some), ("rs2", .id .rs2), ("None", .id .None), ("rs1", .id .rs1), ("rd", .id .rd),
    ("opc", .id .opc), ("OpcodeKind", .id .OpcodeKind), ("BaseI", .id .BaseI),
    ("BaseIOpcode", .id .BaseIOpcode), ("JAL", .id .JAL), ("CrFormat", .id .CrFormat), ("C", .id .C),
    ("COpcode", .id .COpcode), ("MV", .id .MV), ("lib_tests", .id .lib_tests),
    ("usize_try_from_test", .id .usize_try_from_test), ("inst_eq_test", .id .inst_eq_test),
    ("opcode", .id .opcode), ("Rv32", .id .Rv32), ("Err", .id .Err), ("DecodingError", .id .DecodingError),
    ("OnlyRv64Inst", .id .OnlyRv64Inst), ("isa", .id .isa), ("only_rv64", .id .only_rv64),
    ("NoOperand", .id .NoOperand), ("Priv", .id .Priv), ("PrivOpcode", .id .PrivOpcode),
    ("SFENCE_VMA", .id .SFENCE_VMA), ("WFI", .id .WFI), ("SRET", .id .SRET), ("MRET", .id .MRET),
    ("EBREAK", .id .EBREAK), ("NOP", .id .NOP), ("Zifencei", .id .Zifencei),
    ("ZifenceiOpcode", .id .ZifenceiOpcode), ("FENCE", .id .FENCE), ("ECALL", .id .ECALL),
    ("self", .id .self), ("OnlyRs2", .id .OnlyRs2), ("instruction", .id .instruction),
    ("reg2str", .id .reg2str), ("OnlyRs1", .id .OnlyRs1), ("OnlyRd", .id .OnlyRd),
    ("CsrUiFormat", .id .CsrUiFormat), ("CsrFormat", .id .CsrFormat), ("CbFormat", .id .CbFormat),
    ("CaFormat", .id .CaFormat), ("ADD", .id .ADD), ("JALR", .id .JALR), ("JR", .id .JR),
    ("CiFormat", .id .CiFormat), ("CjFormat", .id .CjFormat), ("UFormat", .id .UFormat),
    ("CssFormat", .id .CssFormat), ("CiwFormat", .id .CiwFormat), ("BFormat", .id .BFormat),
    ("SFormat", .id .SFormat), ("CsFormat", .id .CsFormat), ("IFormat", .id .IFormat),
    ("ALrFormat", .id .ALrFormat), ("ClFormat", .id .ClFormat), ("RShamtFormat", .id .RShamtFormat),
    ("AFormat", .id .AFormat), ("A", .id .A), ("AOpcode", .id .AOpcode), ("LR_D", .id .LR_D),
    ("LR_W", .id .LR_W), ("MFormat", .id .MFormat), ("RFormat", .id .RFormat), ("fmt", .id .fmt),
    ("rd_value", .id .rd_value), ("Zicntr", .id .Zicntr), ("Zicfiss", .id .Zicfiss), ("Zicsr", .id .Zicsr),
    ("Zicboz", .id .Zicboz), ("M", .id .M), ("get_format", .id .get_format), ("AMOMAXU_D", .id .AMOMAXU_D),
    ("AMOMINU_D", .id .AMOMINU_D), ("AMOMAX_D", .id .AMOMAX_D), ("AMOMIN_D", .id .AMOMIN_D),
    ("AMOOR_D", .id .AMOOR_D), ("AMOAND_D", .id .AMOAND_D), ("AMOXOR_D", .id .AMOXOR_D),
    ("AMOADD_D", .id .AMOADD_D), ("AMOSWAP_D", .id .AMOSWAP_D), ("SC_D", .id .SC_D),
    ("AMOMAXU_W", .id .AMOMAXU_W), ("AMOMINU_W", .id .AMOMINU_W), ("AMOMAX_W", .id .AMOMAX_W),
    ("AMOMIN_W", .id .AMOMIN_W), ("AMOOR_W", .id .AMOOR_W), ("AMOAND_W", .id .AMOAND_W),
    ("AMOXOR_W", .id .AMOXOR_W), ("AMOADD_W", .id .AMOADD_W), ("AMOSWAP_W", .id .AMOSWAP_W),
    ("SC_W", .id .SC_W), ("SRAW", .id .SRAW), ("SRLW", .id .SRLW), ("SLLW", .id .SLLW),
    ("SUBW", .id .SUBW), ("ADDW", .id .ADDW), ("SRAIW", .id .SRAIW), ("SRLIW", .id .SRLIW),
    ("SLLIW", .id .SLLIW), ("ADDIW", .id .ADDIW), ("SD", .id .SD), ("LD", .id .LD), ("LWU", .id .LWU),
    ("AND", .id .AND), ("OR", .id .OR), ("SRA", .id .SRA), ("SRL", .id .SRL), ("XOR", .id .XOR),
    ("SLTU", .id .SLTU), ("SLT", .id .SLT), ("SLL", .id .SLL), ("SUB", .id .SUB), ("SRAI", .id .SRAI),
    ("SRLI", .id .SRLI), ("SLLI", .id .SLLI), ("ANDI", .id .ANDI), ("ORI", .id .ORI), ("XORI", .id .XORI),
    ("SLTIU", .id .SLTIU), ("SLTI", .id .SLTI), ("ADDI", .id .ADDI), ("SW", .id .SW), ("SH", .id .SH),
    ("SB", .id .SB), ("LHU", .id .LHU), ("LBU", .id .LBU), ("LW", .id .LW), ("LH", .id .LH),
    ("LB", .id .LB), ("BGEU", .id .BGEU), ("BLTU", .id .BLTU), ("BGE", .id .BGE), ("BLT", .id .BLT),
    ("BNE", .id .BNE), ("BEQ", .id .BEQ), ("AUIPC", .id .AUIPC), ("LUI", .id .LUI), ("SDSP", .id .SDSP),
    ("LDSP", .id .LDSP), ("SWSP", .id .SWSP), ("LWSP", .id .LWSP), ("BNEZ", .id .BNEZ),
    ("BEQZ", .id .BEQZ), ("J", .id .J), ("ADDI16SP", .id .ADDI16SP), ("LI", .id .LI),
    ("ADDI4SPN", .id .ADDI4SPN), ("MOpcode", .id .MOpcode), ("REMUW", .id .REMUW), ("REMW", .id .REMW),
    ("DIVUW", .id .DIVUW), ("DIVW", .id .DIVW), ("MULW", .id .MULW), ("REMU", .id .REMU),
    ("REM", .id .REM), ("DIVU", .id .DIVU), ("DIV", .id .DIV), ("MULHU", .id .MULHU),
    ("MULHSU", .id .MULHSU), ("MULH", .id .MULH), ("MUL", .id .MUL), ("ZicbozOpcode", .id .ZicbozOpcode),
    ("CBO_ZERO", .id .CBO_ZERO), ("ZicfissOpcode", .id .ZicfissOpcode), ("SSAMOSWAP_D", .id .SSAMOSWAP_D),
    ("SSAMOSWAP_W", .id .SSAMOSWAP_W), ("SSRDP", .id .SSRDP), ("C_SSPOPCHK", .id .C_SSPOPCHK),
    ("SSPOPCHK", .id .SSPOPCHK), ("C_SSPUSH", .id .C_SSPUSH), ("SSPUSH", .id .SSPUSH),
    ("ZicntrOpcode", .id .ZicntrOpcode), ("RDINSTRET", .id .RDINSTRET), ("RDTIME", .id .RDTIME),
    ("RDCYCLE", .id .RDCYCLE), ("RDINSTRET_H", .id .RDINSTRET_H), ("RDTIME_H", .id .RDTIME_H),
    ("RDCYCLE_H", .id .RDCYCLE_H), ("ZicsrOpcode", .id .ZicsrOpcode), ("CSRRCI", .id .CSRRCI),
    ("CSRRSI", .id .CSRRSI), ("CSRRWI", .id .CSRRWI), ("CSRRC", .id .CSRRC), ("CSRRS", .id .CSRRS),
    ("CSRRW", .id .CSRRW), ("IllegalInstruction", .id .IllegalInstruction), ("new_opc", .id .new_opc),
    ("parse_opcode", .id .parse_opcode), ("new_rd", .id .new_rd), ("parse_rd", .id .parse_rd),
    ("new_rs1", .id .new_rs1), ("parse_rs1", .id .parse_rs1), ("new_rs2", .id .new_rs2),
    ("parse_rs2", .id .parse_rs2), ("new_imm", .id .new_imm), ("parse_imm", .id .parse_imm),
    ("new_fmt", .id .new_fmt), ("u16", .id .u16), ("extension", .id .extension),
    ("parse_extension", .id .parse_extension), ("Not16BitInst", .id .Not16BitInst),
    ("Extensions", .id .Extensions), ("zicfiss_extension_bit_16", .id .zicfiss_extension_bit_16),
    ("c_extension_bit_16", .id .c_extension_bit_16), ("opkind", .id .opkind), ("_isa", .id ._isa),
    ("end", .id .«end»), ("start", .id .start), ("slice", .id .slice), ("i", .id .i), ("m", .id .m),
    ("mask", .id .mask), ("set", .id .«set»), ("op_16", .id .op_16), ("inst_16", .id .inst_16),
    ("e", .id .e), ("op", .id .op), ("location", .id .location), ("test_16", .id .test_16),
    ("test_16_in_rv32", .id .test_16_in_rv32), ("test_16_in_rv64", .id .test_16_in_rv64),
    ("u32", .id .u32), ("decoding_err", .id .decoding_err), ("Not32BitInst", .id .Not32BitInst),
    ("priv_extension_bit_32", .id .priv_extension_bit_32),
    ("zicboz_extension_bit_32", .id .zicboz_extension_bit_32),
    ("zicntr_extension_bit_32", .id .zicntr_extension_bit_32),
    ("zicfiss_extension_bit_32", .id .zicfiss_extension_bit_32),
    ("zicsr_extension_bit_32", .id .zicsr_extension_bit_32),
    ("zifencei_extension_bit_32", .id .zifencei_extension_bit_32),
    ("a_extension_bit_32", .id .a_extension_bit_32), ("m_extension_bit_32", .id .m_extension_bit_32),
    ("base_i_bit_32", .id .base_i_bit_32), ("opmap", .id .opmap), ("funct3", .id .funct3),
    ("funct5", .id .funct5), ("funct7", .id .funct7), ("csr", .id .csr),
    ("UnknownExtension", .id .UnknownExtension), ("op_32", .id .op_32), ("inst_32", .id .inst_32),
    ("test_32", .id .test_32), ("test_32_in_rv32", .id .test_32_in_rv32),
    ("test_32_in_rv64", .id .test_32_in_rv64), ("InvalidOpcode", .id .InvalidOpcode),
    ("InvalidFunct3", .id .InvalidFunct3), ("InvalidFunct7", .id .InvalidFunct7),
    ("aq_and_rl", .id .aq_and_rl), ("a_extension_test_a", .id .a_extension_test_a),
    ("a_decode_test", .id .a_decode_test), ("funct6", .id .funct6), ("InvalidFunct5", .id .InvalidFunct5),
    ("InvalidFunct6", .id .InvalidFunct6), ("U_type", .id .U_type), ("imm32", .id .imm32),
    ("to_signed_nbit", .id .to_signed_nbit), ("I_type", .id .I_type), ("S_type", .id .S_type),
    ("B_type", .id .B_type), ("J_type", .id .J_type), ("shamt5", .id .shamt5), ("shamt6", .id .shamt6),
    ("base_i_test_basei", .id .base_i_test_basei), ("basei_decode_test", .id .basei_decode_test),
    ("_inst", .id ._inst), ("quadrant0", .id .quadrant0), ("sr_flag", .id .sr_flag),
    ("lo_flag", .id .lo_flag), ("mi_flag", .id .mi_flag), ("bit_12", .id .bit_12),
    ("quadrant1", .id .quadrant1), ("hi_flag", .id .hi_flag), ("quadrant2", .id .quadrant2),
    ("quadrant", .id .quadrant), ("q0_rd", .id .q0_rd), ("q1_rd", .id .q1_rd),
    ("q1_wide_rd", .id .q1_wide_rd), ("q2_rd", .id .q2_rd), ("q0_rs1", .id .q0_rs1),
    ("q1_rs1", .id .q1_rs1), ("q1_addi_rs1", .id .q1_addi_rs1), ("q2_rs1", .id .q2_rs1),
    ("q0_rs2", .id .q0_rs2), ("q1_rs2", .id .q1_rs2), ("q2_rs2", .id .q2_rs2), ("q0_uimm", .id .q0_uimm),
    ("q0_uimm_64", .id .q0_uimm_64), ("q0_nzuimm", .id .q0_nzuimm), ("q1_nzuimm", .id .q1_nzuimm),
    ("imm16", .id .imm16), ("q1_nzimm", .id .q1_nzimm), ("q1_imm", .id .q1_imm),
    ("q1_j_imm", .id .q1_j_imm), ("q1_b_imm", .id .q1_b_imm), ("q1_16sp_nzimm", .id .q1_16sp_nzimm),
    ("q1_lui_imm", .id .q1_lui_imm), ("q2_imm", .id .q2_imm), ("q2_lwsp_imm", .id .q2_lwsp_imm),
    ("q2_ldsp_imm", .id .q2_ldsp_imm), ("q2_swsp_imm", .id .q2_swsp_imm),
    ("q2_sdsp_imm", .id .q2_sdsp_imm), ("c_extension_test_c", .id .c_extension_test_c),
    ("c_decode_test", .id .c_decode_test), ("_opkind", .id ._opkind),
    ("m_extension_test_m", .id .m_extension_test_m), ("m_decode_test", .id .m_decode_test),
    ("_opmap", .id ._opmap), ("_funct3", .id ._funct3),
    ("priv_extension_test_priv", .id .priv_extension_test_priv),
    ("priv_decode_test", .id .priv_decode_test), ("field_11_7", .id .field_11_7),
    ("cbo_num", .id .cbo_num), ("zicboz_extension_test_zicboz", .id .zicboz_extension_test_zicboz),
    ("zicboz_decode_test", .id .zicboz_decode_test), ("funct7_rs2", .id .funct7_rs2),
    ("zicfiss_extension_test_zicfiss", .id .zicfiss_extension_test_zicfiss),
    ("zicfiss_32bit_decode_test", .id .zicfiss_32bit_decode_test), ("zicfiss_16", .id .zicfiss_16),
    ("csr_num", .id .csr_num), ("zicntr_extension_test_zicntr", .id .zicntr_extension_test_zicntr),
    ("zicntr_decode_test", .id .zicntr_decode_test), ("uimm", .id .uimm),
    ("zicsr_extension_test_zicsr", .id .zicsr_extension_test_zicsr),
    ("zicsr_decode_test", .id .zicsr_decode_test), ("fm_pred_succ", .id .fm_pred_succ),
    ("zifencei_extension_test_zifenci", .id .zifencei_extension_test_zifenci),
    ("zifenci_decode_test", .id .zifenci_decode_test), ("bit_size", .id .bit_size), ("u8", .id .u8),
    ("usize", .id .usize), ("i32", .id .i32)]

/-- The same, keyed by the number the characters of a word spell in base 256. -/
def words : Tree :=
  (.node (.node (.node (.node (.node (.node (.node (.node (.node .leaf 65 (.id .A) .leaf)
         67 (.id .C)
         (.node .leaf 74 (.id .J) .leaf))
        77 (.id .M)
        (.node (.node .leaf 101 (.id .e) .leaf)
         102 (.kw .f)
         .leaf))
       105 (.id .i)
       (.node (.node (.node .leaf 109 (.id .m) .leaf)
         19026 (.id .JR)
         .leaf)
        19522 (.id .LB)
        (.node (.node .leaf 19524 (.id .LD) .leaf)
         19528 (.id .LH)
         .leaf)))
      19529 (.id .LI)
      (.node (.node (.node (.node .leaf 19543 (.id .LW) .leaf)
         19798 (.id .MV)
         .leaf)
        20306 (.id .OR)
        (.node (.node .leaf 20331 (.id .Ok) .leaf)
         21314 (.id .SB)
         .leaf))
       21316 (.id .SD)
       (.node (.node (.node .leaf 21320 (.id .SH) .leaf)
         21335 (.id .SW)
         .leaf)
        24947 (.kw .«as»)
        (.node (.node .leaf 26222 (.kw .«fn») .leaf)
         26982 (.kw .«if»)
         .leaf))))
     26990 (.kw .«in»)
     (.node (.node (.node (.node (.node .leaf 28528 (.id .op) .leaf)
         29284 (.id .rd)
         (.node .leaf 30008 (.id .u8) .leaf))
        4277316 (.id .ADD)
        (.node (.node .leaf 4279876 (.id .AND) .leaf)
         4343121 (.id .BEQ)
         .leaf))
       4343621 (.id .BGE)
       (.node (.node (.node .leaf 4344916 (.id .BLT) .leaf)
         4345413 (.id .BNE)
         .leaf)
        4475222 (.id .DIV)
        (.node (.node .leaf 4551282 (.id .Err) .leaf)
         4813665 (.id .Isa)
         .leaf)))
      4866380 (.id .JAL)
      (.node (.node (.node (.node .leaf 4997717 (.id .LBU) .leaf)
         4999253 (.id .LHU)
         .leaf)
        5002569 (.id .LUI)
        (.node (.node .leaf 5003093 (.id .LWU) .leaf)
         5068108 (.id .MUL)
         .leaf))
       5132112 (.id .NOP)
       (.node (.node (.node .leaf 5198409 (.id .ORI) .leaf)
         5391693 (.id .REM)
         .leaf)
        5459020 (.id .SLL)
        (.node (.node .leaf 5459028 (.id .SLT) .leaf)
         5460545 (.id .SRA)
         .leaf)))))
    5460556 (.id .SRL)
    (.node (.node (.node (.node (.node (.node .leaf 5461314 (.id .SUB) .leaf)
         5719625 (.id .WFI)
         (.node .leaf 5787474 (.id .XOR) .leaf))
        6514279 (.kw .cfg)
        (.node (.node .leaf 6517618 (.id .csr) .leaf)
         6647396 (.id .«end»)
         .leaf))
       6712692 (.id .fmt)
       (.node (.node (.node .leaf 6713202 (.kw .«for») .leaf)
         6894386 (.id .i32)
         .leaf)
        6909293 (.id .imm)
        (.node (.node .leaf 6910817 (.id .isa) .leaf)
         7103860 (.kw .«let»)
         .leaf)))
      7171940 (.kw .mod)
      (.node (.node (.node (.node .leaf 7173492 (.kw .«mut») .leaf)
         7303267 (.id .opc)
         .leaf)
        7368567 (.kw .pow)
        (.node (.node .leaf 7370082 (.kw .pub) .leaf)
         7497078 (.kw .rev)
         .leaf))
       7500593 (.id .rs1)
       (.node (.node (.node .leaf 7500594 (.id .rs2) .leaf)
         7562612 (.id .«set»)
         .leaf)
        7566436 (.kw .std)
        (.node (.node .leaf 7680310 (.id .u16) .leaf)
         7680818 (.id .u32)
         .leaf))))
     7697253 (.kw .use)
     (.node (.node (.node (.node (.node .leaf 1094992969 (.id .ADDI) .leaf)
         1094992983 (.id .ADDW)
         (.node .leaf 1095648329 (.id .ANDI) .leaf))
        1111839066 (.id .BEQZ)
        (.node (.node .leaf 1111967061 (.id .BGEU) .leaf)
         1112298581 (.id .BLTU)
         .leaf))
       1112425818 (.id .BNEZ)
       (.node (.node (.node .leaf 1131376761 (.kw .Copy) .leaf)
         1145656917 (.id .DIVU)
         .leaf)
        1145656919 (.id .DIVW)
        (.node (.node .leaf 1245793362 (.id .JALR) .leaf)
         1279546192 (.id .LDSP)
         .leaf)))
      1280466756 (.id .LR_D)
      (.node (.node (.node (.node .leaf 1280466775 (.id .LR_W) .leaf)
         1280791376 (.id .LWSP)
         .leaf)
        1297237332 (.id .MRET)
        (.node (.node .leaf 1297435720 (.id .MULH) .leaf)
         1297435735 (.id .MULW)
         .leaf))
       1315925605 (.id .None)
       (.node (.node (.node .leaf 1349675382 (.id .Priv) .leaf)
         1380273493 (.id .REMU)
         .leaf)
        1380273495 (.id .REMW)
        (.node (.node .leaf 1383478066 (.id .Rv32) .leaf)
         1383478836 (.id .Rv64)
         .leaf))))))
   1396924228 (.id .SC_D)
   (.node (.node (.node (.node (.node (.node (.node .leaf 1396924247 (.id .SC_W) .leaf)
         1396986704 (.id .SDSP)
         (.node .leaf 1397509193 (.id .SLLI) .leaf))
        1397509207 (.id .SLLW)
        (.node (.node .leaf 1397511241 (.id .SLTI) .leaf)
         1397511253 (.id .SLTU)
         .leaf))
       1397899593 (.id .SRAI)
       (.node (.node (.node .leaf 1397899607 (.id .SRAW) .leaf)
         1397900628 (.id .SRET)
         .leaf)
        1397902409 (.id .SRLI)
        (.node (.node .leaf 1397902423 (.id .SRLW) .leaf)
         1398096471 (.id .SUBW)
         .leaf)))
      1398231888 (.id .SWSP)
      (.node (.node (.node (.node .leaf 1399155814 (.kw .Self) .leaf)
         1399811429 (.id .Some)
         .leaf)
        1481593417 (.id .XORI)
        (.node (.node .leaf 1600746337 (.id ._isa) .leaf)
         1701606245 (.kw .«else»)
         .leaf))
       1701737837 (.kw .enum)
       (.node (.node (.node .leaf 1718775661 (.kw .«from») .leaf)
         1768779884 (.kw .impl)
         .leaf)
        1768846196 (.id .inst)
        (.node (.node .leaf 1768846447 (.kw .into) .leaf)
         1769235826 (.kw .iter)
         .leaf))))
     1835103083 (.id .mask)
     (.node (.node (.node (.node (.node .leaf 1936026726 (.id .self) .leaf)
         1952805748 (.kw .test)
         (.node .leaf 1953658213 (.kw .«true») .leaf))
        1954115685 (.kw .«type»)
        (.node (.node .leaf 1969843565 (.id .uimm) .leaf)
         280318200151 (.id .ADDIW)
         .leaf))
       280603742275 (.id .AUIPC)
       (.node (.node (.node .leaf 285102794057 (.id .BaseI) .leaf)
         289160712771 (.id .CSRRC)
         .leaf)
        289160712787 (.id .CSRRS)
        (.node (.node .leaf 289160712791 (.id .CSRRW) .leaf)
         289582050917 (.kw .Clone)
         .leaf)))
      293288170839 (.id .DIVUW)
      (.node (.node (.node (.node .leaf 293758727527 (.kw .Debug) .leaf)
         297481096268 (.id .ECALL)
         .leaf)
        301810467653 (.id .FENCE)
        (.node (.node .leaf 332143544405 (.id .MULHU) .leaf)
         353350014295 (.id .REMUW)
         .leaf))
       357762353495 (.id .SLLIW)
       (.node (.node (.node .leaf 357762877781 (.id .SLTIU) .leaf)
         357862295895 (.id .SRAIW)
         .leaf)
        357863016791 (.id .SRLIW)
        (.node (.node .leaf 357880185936 (.id .SSRDP) .leaf)
         388315181938 (.id .Zicsr)
         .leaf)))))
    409790739316 (.id ._inst)
    (.node (.node (.node (.node (.node (.node .leaf 439721161573 (.kw .«false») .leaf)
         452807438646 (.id .imm16)
         (.node .leaf 452807439154 (.id .imm32) .leaf))
        469786452840 (.kw .«match»)
        (.node (.node .leaf 478626656566 (.id .op_16) .leaf)
         478626657074 (.id .op_32)
         .leaf))
       478627586416 (.id .opmap)
       (.node (.node (.node .leaf 482670963043 (.kw .panic) .leaf)
         486142866020 (.id .q0_rd)
         .leaf)
        486159643236 (.id .q1_rd)
        (.node (.node .leaf 486176420452 (.id .q2_rd) .leaf)
         495740085093 (.id .slice)
         .leaf)))
      495873782388 (.id .start)
      (.node (.node (.node (.node .leaf 500135192948 (.kw .trait) .leaf)
         504447466085 (.id .usize)
         .leaf)
        513020621925 (.kw .write)
        (.node (.node .leaf 72977743442021 (.id .B_type) .leaf)
         74025142469449 (.id .CSRRCI)
         .leaf))
       74025142473545 (.id .CSRRSI)
       (.node (.node (.node .leaf 74025142474569 (.id .CSRRWI) .leaf)
         76151150428491 (.id .EBREAK)
         .leaf)
        80674324836453 (.id .I_type)
        (.node (.node .leaf 81773836464229 (.id .J_type) .leaf)
         85028747367253 (.id .MULHSU)
         .leaf))))
     87335684887140 (.id .OnlyRd)
     (.node (.node (.node (.node (.node .leaf 87344407998318 (.id .Option) .leaf)
         90453425343813 (.id .RDTIME)
         (.node .leaf 90595682249844 (.id .Result) .leaf))
        91617295160136 (.id .SSPUSH)
        (.node (.node .leaf 91669441114213 (.id .S_type) .leaf)
         93868464369765 (.id .U_type)
         .leaf))
       99408685461370 (.id .Zicboz)
       (.node (.node (.node .leaf 99408686249074 (.id .Zicntr) .leaf)
         104932232225136 (.id ._opmap)
         .leaf)
        107148485161588 (.kw .assert)
        (.node (.node .leaf 108205063483698 (.id .bit_12) .leaf)
         109270082020722 (.kw .caller)
         .leaf)))
      110386622719077 (.id .decode)
      (.node (.node (.node (.node .leaf 110386873988709 (.kw .derive) .leaf)
         111567956173684 (.kw .expect)
         .leaf)
        112654549218355 (.id .funct3)
        (.node (.node .leaf 112654549218357 (.id .funct5) .leaf)
         112654549218358 (.id .funct6)
         .leaf))
       112654549218359 (.id .funct7)
       (.node (.node (.node .leaf 121382073496164 (.id .new_rd) .leaf)
         122528495264869 (.id .opcode)
         .leaf)
        122528629091940 (.id .opkind)
        (.node (.node .leaf 124452573705009 (.id .q0_rs1) .leaf)
         124452573705010 (.id .q0_rs2)
         .leaf)))))))
  124456868081005 (.id .q1_imm)
  (.node (.node (.node (.node (.node (.node (.node (.node .leaf 124456868672305 (.id .q1_rs1) .leaf)
         124456868672306 (.id .q1_rs2)
         (.node .leaf 124461163048301 (.id .q2_imm) .leaf))
        124461163639601 (.id .q2_rs1)
        (.node (.node .leaf 124461163639602 (.id .q2_rs2) .leaf)
         125780071117422 (.kw .«return»)
         .leaf))
       126892148356149 (.id .shamt5)
       (.node (.node (.node .leaf 126892148356150 (.id .shamt6) .leaf)
         126943973696372 (.kw .struct)
         .leaf)
        129117310837104 (.kw .unwrap)
        (.node (.node .leaf 18373317961277812 (.id .AFormat) .leaf)
         18380876514746180 (.id .AMOOR_D)
         .leaf)))
      18380876514746199 (.id .AMOOR_W)
      (.node (.node (.node (.node .leaf 18383217609368677 (.id .AOpcode) .leaf)
         18654792937988468 (.id .BFormat)
         .leaf)
        18946167562789989 (.id .COpcode)
        (.node (.node .leaf 20625117774963060 (.id .IFormat) .leaf)
         20906592751673716 (.id .JFormat)
         .leaf))
       21751017681805684 (.id .MFormat)
       (.node (.node (.node .leaf 21760917329896549 (.id .MOpcode) .leaf)
         22357935331111729 (.id .OnlyRs1)
         .leaf)
        22357935331111730 (.id .OnlyRs2)
        (.node (.node .leaf 23156004141354053 (.id .RDCYCLE) .leaf)
         23158392565358964 (.id .RFormat)
         .leaf))))
     23439867542069620 (.id .SFormat)
     (.node (.node (.node (.node (.node .leaf 24002817495490932 (.id .UFormat) .leaf)
         25448623544824691 (.id .Zicfiss)
         (.node .leaf 26852777336730675 (.id ._funct3) .leaf))
        26862651416604260 (.id ._opkind)
        (.node (.node .leaf 27974253176321389 (.id .cbo_num) .leaf)
         27992957758895469 (.id .csr_num)
         .leaf))
       29389256039096679 (.id .hi_flag)
       (.node (.node (.node .leaf 29676314707308854 (.id .inst_16) .leaf)
         29676314707309362 (.id .inst_32)
         .leaf)
        30521753015705959 (.id .lo_flag)
        (.node (.node .leaf 30787924973348211 (.kw .matches) .leaf)
         30796630922649959 (.id .mi_flag)
         .leaf)))
      31073810814233972 (.id .new_fmt)
      (.node (.node (.node (.node .leaf 31073810814430573 (.id .new_imm) .leaf)
         31073810814824547 (.id .new_opc)
         .leaf)
        31073810815021873 (.id .new_rs1)
        (.node (.node .leaf 31073810815021874 (.id .new_rs2) .leaf)
         31859858918174061 (.id .q0_uimm)
         .leaf))
       32199641247478898 (.id .reg2str)
       (.node (.node (.node .leaf 32495376387563879 (.id .sr_flag) .leaf)
         32762643846476086 (.id .test_16)
         .leaf)
        32762643846476594 (.id .test_32)
        (.node (.node .leaf 4702958992030585680 (.id .ADDI16SP) .leaf)
         4702958992082817102 (.id .ADDI4SPN)
         .leaf)))))
    4705504327408836420 (.id .AMOADD_D)
    (.node (.node (.node (.node (.node (.node .leaf 4705504327408836439 (.id .AMOADD_W) .leaf)
         4705504327576608580 (.id .AMOAND_D)
         (.node .leaf 4705504327576608599 (.id .AMOAND_W) .leaf))
        4705504378899423044 (.id .AMOMAX_D)
        (.node (.node .leaf 4705504378899423063 (.id .AMOMAX_W) .leaf)
         4705504379032985412 (.id .AMOMIN_D)
         .leaf))
       4705504379032985431 (.id .AMOMIN_W)
       (.node (.node (.node .leaf 4705504426378551108 (.id .AMOXOR_D) .leaf)
         4705504426378551127 (.id .AMOXOR_W)
         .leaf)
        4846523419959054927 (.id .CBO_ZERO)
        (.node (.node .leaf 4854690540623844168 (.id .C_SSPUSH) .leaf)
         4855239317757190516 (.id .CaFormat)
         .leaf)))
      4855520792733901172 (.id .CbFormat)
      (.node (.node (.node (.node .leaf 4857491117570875764 (.id .CiFormat) .leaf)
         4857772592547586420 (.id .CjFormat)
         .leaf)
        4858335542501007732 (.id .ClFormat)
        (.node (.node .leaf 4860024392361271668 (.id .CrFormat) .leaf)
         4860305867337982324 (.id .CsFormat)
         .leaf))
       5507730139513450350 (.kw .Location)
       (.node (.node (.node .leaf 5927955683332153160 (.id .RDTIME_H) .leaf)
         6004231029794228299 (.id .SSPOPCHK)
         .leaf)
        6514850921797870953 (.id .Zifencei)
        (.node (.node .leaf 7091327041578564197 (.id .bit_size) .leaf)
         7813573148727144302 (.id .location)
         .leaf))))
     8097879444936421988 (.id .parse_rd)
     (.node (.node (.node (.node (.node .leaf 8156405276256857453 (.id .q1_b_imm) .leaf)
         8156405310616595821 (.id .q1_j_imm)
         (.node .leaf 8156405328249449837 (.id .q1_nzimm) .leaf))
        8175547782604615284 (.id .quadrant)
        (.node (.node .leaf 8242818180040127845 (.id .rd_value) .leaf)
         8390902506392285037 (.id .try_from)
         .leaf))
       1204546907529823478132 (.id .ALrFormat)
       (.node (.node (.node .leaf 1204609120998251650884 (.id .AMOMAXU_D) .leaf)
         1204609120998251650903 (.id .AMOMAXU_W)
         .leaf)
        1204609121032443617092 (.id .AMOMINU_D)
        (.node (.node .leaf 1204609121032443617111 (.id .AMOMINU_W) .leaf)
         1204609127689424494404 (.id .AMOSWAP_D)
         .leaf)))
      1204609127689424494423 (.id .AMOSWAP_W)
      (.node (.node (.node (.node .leaf 1243531473279226044788 (.id .CiwFormat) .leaf)
         1244250641844721770868 (.id .CsrFormat)
         .leaf)
        1244250923319698481524 (.id .CssFormat)
        (.node (.node .leaf 1446866790791728164452 (.id .NoOperand) .leaf)
         1482761328661743027569 (.kw .PartialEq)
         .leaf))
       1517551887407779241800 (.id .RDCYCLE_H)
       (.node (.node (.node .leaf 1517553564231866139988 (.id .RDINSTRET) .leaf)
         1797503530525658149484 (.id .aq_and_rl)
         .leaf)
        1797653279628763030897 (.kw .assert_eq)
        (.node (.node .leaf 1797653279628763033189 (.kw .assert_ne) .leaf)
         1871080539643590046821 (.kw .enumerate)
         .leaf))))))
   1871800825351571599214 (.id .extension)
   (.node (.node (.node (.node (.node (.node (.node .leaf 1999842096835854562419 (.id .lib_tests) .leaf)
         2055545460274266256948 (.id .only_rv64)
         (.node .leaf 2073057137903723441517 (.id .parse_imm) .leaf))
        2073057137903724032817 (.id .parse_rs1)
        (.node (.node .leaf 2073057137903724032818 (.id .parse_rs2) .leaf)
         2087967706438022294893 (.id .q0_nzuimm)
         .leaf))
       2088039764032060222829 (.id .q1_nzuimm)
       (.node (.node (.node .leaf 2092940232346781512752 (.id .quadrant0) .leaf)
         2092940232346781512753 (.id .quadrant1)
         .leaf)
        2092940232346781512754 (.id .quadrant2)
        (.node (.node .leaf 318156999270298430949451 (.id .C_SSPOPCHK) .leaf)
         328065283838173682560627 (.id .Extensions)
         .leaf)))
      346770214449448286511476 (.id .InstFormat)
      (.node (.node (.node (.node .leaf 375140152538875831086692 (.id .OpcodeKind) .leaf)
         379899846802739863446629 (.id .PrivOpcode)
         .leaf)
        393252684166342253104449 (.id .SFENCE_VMA)
        (.node (.node .leaf 483625597707098640178999 (.id .field_11_7) .leaf)
         483847604638475869123378 (.id .funct7_rs2)
         .leaf))
       488275254420678156050804 (.id .get_format)
       (.node (.node (.node .leaf 534519734799732553233972 (.id .q0_uimm_64) .leaf)
         534538179023708197842285 (.id .q1_lui_imm)
         .leaf)
        534538182106717427298916 (.id .q1_wide_rd)
        (.node (.node .leaf 578072781566038176117046 (.id .zicfiss_16) .leaf)
         80249302317424372968547429 (.id .BaseIOpcode)
         .leaf))))
     81543211143062377047351668 (.id .CsrUiFormat)
     (.node (.node (.node (.node (.node .leaf 88773174911450193085427566 (.id .Instruction) .leaf)
         99454390385499579350277960 (.id .RDINSTRET_H)
         (.node .leaf 100734004055220091477843780 (.id .SSAMOSWAP_D) .leaf))
        100734004055220091477843799 (.id .SSAMOSWAP_W)
        (.node (.node .leaf 109301006792480041546507365 (.id .ZicsrOpcode) .leaf)
         127458801133753860950417780 (.id .inst_format)
         .leaf))
       127458801139118326676025198 (.id .instruction)
       (.node (.node (.node .leaf 136841773032645234850427697 (.id .q1_addi_rs1) .leaf)
         136846496191778161651445101 (.id .q2_ldsp_imm)
         .leaf)
        136846496197126186208947565 (.id .q2_lwsp_imm)
        (.node (.node .leaf 136846496696181319916940653 (.id .q2_sdsp_imm) .leaf)
         136846496701529344474443117 (.id .q2_swsp_imm)
         .leaf)))
      141965891442081047836257381 (.kw .unreachable)
      (.node (.node (.node (.node .leaf 24274570234354415064218235764 (.id .Not16BitInst) .leaf)
         24274570270959672835485627252 (.id .Not32BitInst)
         .leaf)
        24582809869622048835574330228 (.id .OnlyRv64Inst)
        (.node (.node .leaf 25478604571713709741769056628 (.id .RShamtFormat) .leaf)
         27981057425076135796478534757 (.id .ZicbozOpcode)
         .leaf))
       27981057646795100851369108581 (.id .ZicntrOpcode)
       (.node (.node (.node .leaf 31071072059021416362368397938 (.id .decoding_err) .leaf)
         31699694615209505515829027683 (.id .fm_pred_succ)
         .leaf)
        32629453090240709045866820468 (.id .inst_eq_test)
        (.node (.node .leaf 34780127382952561992388273253 (.id .parse_opcode) .leaf)
         5418893246653023785661452414834 (.id .DecodingError)
         .leaf)))))
    5817842327937750598789097550899 (.id .InvalidFunct3)
    (.node (.node (.node (.node (.node (.node .leaf 5817842327937750598789097550901 (.id .InvalidFunct5) .leaf)
         5817842327937750598789097550902 (.id .InvalidFunct6)
         (.node .leaf 5817842327937750598789097550903 (.id .InvalidFunct7) .leaf))
        5817842327937750608663043597413 (.id .InvalidOpcode)
        (.node (.node .leaf 7163150719597781924647474783333 (.id .ZicfissOpcode) .leaf)
         7714654211191899076048030364532 (.id .a_decode_test)
         .leaf))
       7794519477538879590727109522226 (.id .base_i_bit_32)
       (.node (.node (.node .leaf 7873110536220427751235118265204 (.id .c_decode_test) .leaf)
         8354663157649829845001278023012 (.id .is_compressed)
         .leaf)
        8665392161363071127170557768564 (.id .m_decode_test)
        (.node (.node .leaf 8968062209946379540242367081837 (.id .q1_16sp_nzimm) .leaf)
         1833767511486451500115304031151205 (.id .ZifenceiOpcode)
         .leaf)))
      2361583380662835844330231160793460 (.id .to_signed_nbit)
      (.node (.node (.node (.node .leaf 2381793988497669153883543523062629 (.kw .unwrap_or_else) .leaf)
         583513709611309666413482554119778158 (.id .parse_extension)
         .leaf)
        604364106214039455117585503105725234 (.id .test_16_in_rv32)
        (.node (.node .leaf 604364106214039455117585503105726004 (.id .test_16_in_rv64) .leaf)
         604364106214048826063574947557946162 (.id .test_32_in_rv32)
         .leaf))
       604364106214048826063574947557946932 (.id .test_32_in_rv64)
       (.node (.node (.node .leaf 113557711263579366538296026519845826414 (.id .UnknownExtension) .leaf)
         149467596401237555531723547306768036724 (.id .priv_decode_test)
         .leaf)
        33477206244064494495583543875896408761705 (.id .base_i_test_basei)
        (.node (.node .leaf 33477206244853687244384388415707100312436 (.id .basei_decode_test) .leaf)
         41654534082839541050998317936213926179700 (.id .zicsr_decode_test)
         .leaf))))
     6396091451788293676283694525160910838394734 (.id .IllegalInstruction)
     (.node (.node (.node (.node (.node .leaf 8482353437702226120747005641016244464202546 (.id .a_extension_bit_32) .leaf)
         8482353437702226120747005641036018478243681 (.id .a_extension_test_a)
         (.node .leaf 8656578009565746614040253440021309788467510 (.id .c_extension_bit_16) .leaf))
        8656578009565746614040253440041083802509155 (.id .c_extension_test_c)
        (.node (.node .leaf 9527700868883349080506492435046636409795378 (.id .m_extension_bit_32) .leaf)
         9527700868883349080506492435066410423836525 (.id .m_extension_test_m)
         .leaf))
       10663560636879166296915679070550959981949812 (.id .zicboz_decode_test)
       (.node (.node (.node .leaf 10663560699287506822051754850335903837418356 (.id .zicntr_decode_test) .leaf)
         2619240993450935557741678747212313010345702260 (.id .usize_try_from_test)
         .leaf)
        2729872547870193320634133426729439332399412084 (.id .zifenci_decode_test)
        (.node (.node .leaf 164341360218892332529196441242818826631043474207538 (.id .priv_extension_bit_32) .leaf)
         45799644573673776437425582274421276274152838575108914 (.id .zicsr_extension_bit_32)
         .leaf)))
      11724708913743091393171782070968437480274824360944939826 (.id .zicboz_extension_bit_32)
      (.node (.node (.node (.node .leaf 11724708982361787470763055395500669614017812453549617970 (.id .zicntr_extension_bit_32) .leaf)
         2757190498126163943586155001162079903587321576925707790710 (.id .priv_extension_test_priv)
         .leaf)
        3001525487729829636313045305943647829984969487537533825334 (.id .zicfiss_extension_bit_16)
        (.node (.node .leaf 3001525487729829636313045305943647829984969487537533825842 (.id .zicfiss_extension_bit_32) .leaf)
         768390524858836386879032340636077335162424195608156016309108 (.id .zicfiss_32bit_decode_test)
         .leaf))
       768390811834821733086533878038270741996461678392754426557234 (.id .zifencei_extension_bit_32)
       (.node (.node (.node .leaf 196707975612352732371558266302396678924152100529277454034105202 (.id .zicsr_extension_test_zicsr) .leaf)
         12891453782949443194780641716441239046656281766693435811359732428666 (.id .zicboz_extension_test_zicboz)
         .leaf)
        12891453858396497414919649046710200713806728340019390905141743744114 (.id .zicntr_extension_test_zicntr)
        (.node (.node .leaf 844854316755194188373432966001084455238160364697048250575350378565038963 (.id .zicfiss_extension_test_zicfiss) .leaf)
         216282785865888504060097602792353003816121575440323631450684304158945600361 (.id .zifencei_extension_test_zifenci)
         .leaf))))))))

end Raki.Source
