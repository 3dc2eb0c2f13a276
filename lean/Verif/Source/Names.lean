/-!
# The names that occur in the source

Generated from /repo/src by tools/source.py; do not edit.
-/

namespace Raki.Source

/-- The identifiers of the source: modules, types, variants, functions, fields and variables. -/
inductive Id where
  | inst | decode | Isa | Rv64 | Instruction | try_from | Result | Ok | is_compressed | inst_format
  | InstFormat | JFormat | imm | Option | Some | rs2 | None | rs1 | rd | opc | OpcodeKind | BaseI
  | BaseIOpcode | JAL | CrFormat | C | COpcode | MV | lib_tests | usize_try_from_test | inst_eq_test
  | opcode | Rv32 | Err | DecodingError | OnlyRv64Inst | isa | only_rv64 | NoOperand | Priv | PrivOpcode
  | SFENCE_VMA | WFI | SRET | MRET | EBREAK | NOP | Zifencei | ZifenceiOpcode | FENCE | ECALL | self
  | OnlyRs2 | instruction | reg2str | OnlyRs1 | OnlyRd | CsrUiFormat | CsrFormat | CbFormat | CaFormat | ADD
  | JALR | JR | CiFormat | CjFormat | UFormat | CssFormat | CiwFormat | BFormat | SFormat | CsFormat
  | IFormat | ALrFormat | ClFormat | RShamtFormat | AFormat | A | AOpcode | LR_D | LR_W | MFormat | RFormat
  | fmt | rd_value | Zicntr | Zicfiss | Zicsr | Zicboz | M | get_format | AMOMAXU_D | AMOMINU_D | AMOMAX_D
  | AMOMIN_D | AMOOR_D | AMOAND_D | AMOXOR_D | AMOADD_D | AMOSWAP_D | SC_D | AMOMAXU_W | AMOMINU_W
  | AMOMAX_W | AMOMIN_W | AMOOR_W | AMOAND_W | AMOXOR_W | AMOADD_W | AMOSWAP_W | SC_W | SRAW | SRLW | SLLW
  | SUBW | ADDW | SRAIW | SRLIW | SLLIW | ADDIW | SD | LD | LWU | AND | OR | SRA | SRL | XOR | SLTU | SLT
  | SLL | SUB | SRAI | SRLI | SLLI | ANDI | ORI | XORI | SLTIU | SLTI | ADDI | SW | SH | SB | LHU | LBU | LW
  | LH | LB | BGEU | BLTU | BGE | BLT | BNE | BEQ | AUIPC | LUI | SDSP | LDSP | SWSP | LWSP | BNEZ | BEQZ
  | J | ADDI16SP | LI | ADDI4SPN | MOpcode | REMUW | REMW | DIVUW | DIVW | MULW | REMU | REM | DIVU | DIV
  | MULHU | MULHSU | MULH | MUL | ZicbozOpcode | CBO_ZERO | ZicfissOpcode | SSAMOSWAP_D | SSAMOSWAP_W
  | SSRDP | C_SSPOPCHK | SSPOPCHK | C_SSPUSH | SSPUSH | ZicntrOpcode | RDINSTRET | RDTIME | RDCYCLE
  | RDINSTRET_H | RDTIME_H | RDCYCLE_H | ZicsrOpcode | CSRRCI | CSRRSI | CSRRWI | CSRRC | CSRRS | CSRRW
  | IllegalInstruction | new_opc | parse_opcode | new_rd | parse_rd | new_rs1 | parse_rs1 | new_rs2
  | parse_rs2 | new_imm | parse_imm | new_fmt | u16 | extension | parse_extension | Not16BitInst
  | Extensions | zicfiss_extension_bit_16 | c_extension_bit_16 | opkind | _isa | «end» | start | slice | i
  | m | mask | «set» | op_16 | inst_16 | e | op | location | test_16 | test_16_in_rv32 | test_16_in_rv64
  | u32 | decoding_err | Not32BitInst | priv_extension_bit_32 | zicboz_extension_bit_32
  | zicntr_extension_bit_32 | zicfiss_extension_bit_32 | zicsr_extension_bit_32 | zifencei_extension_bit_32
  | a_extension_bit_32 | m_extension_bit_32 | base_i_bit_32 | opmap | funct3 | funct5 | funct7 | csr
  | UnknownExtension | op_32 | inst_32 | test_32 | test_32_in_rv32 | test_32_in_rv64 | InvalidOpcode
  | InvalidFunct3 | InvalidFunct7 | aq_and_rl | a_extension_test_a | a_decode_test | funct6 | InvalidFunct5
  | InvalidFunct6 | U_type | imm32 | to_signed_nbit | I_type | S_type | B_type | J_type | shamt5 | shamt6
  | base_i_test_basei | basei_decode_test | _inst | quadrant0 | sr_flag | lo_flag | mi_flag | bit_12
  | quadrant1 | hi_flag | quadrant2 | quadrant | q0_rd | q1_rd | q1_wide_rd | q2_rd | q0_rs1 | q1_rs1
  | q1_addi_rs1 | q2_rs1 | q0_rs2 | q1_rs2 | q2_rs2 | q0_uimm | q0_uimm_64 | q0_nzuimm | q1_nzuimm | imm16
  | q1_nzimm | q1_imm | q1_j_imm | q1_b_imm | q1_16sp_nzimm | q1_lui_imm | q2_imm | q2_lwsp_imm
  | q2_ldsp_imm | q2_swsp_imm | q2_sdsp_imm | c_extension_test_c | c_decode_test | _opkind
  | m_extension_test_m | m_decode_test | _opmap | _funct3 | priv_extension_test_priv | priv_decode_test
  | field_11_7 | cbo_num | zicboz_extension_test_zicboz | zicboz_decode_test | funct7_rs2
  | zicfiss_extension_test_zicfiss | zicfiss_32bit_decode_test | zicfiss_16 | csr_num
  | zicntr_extension_test_zicntr | zicntr_decode_test | uimm | zicsr_extension_test_zicsr
  | zicsr_decode_test | fm_pred_succ | zifencei_extension_test_zifenci | zifenci_decode_test | bit_size | u8
  | usize | i32
  deriving DecidableEq

end Raki.Source
