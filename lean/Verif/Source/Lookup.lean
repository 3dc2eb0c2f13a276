import Verif.Source.Eval
import Verif.Source.Program
/-!
# Finding the functions of the crate

Generated from /repo/src by tools/source.py; do not edit.
-/

namespace Raki.Source

theorem call_AOpcode_get_format (md : Build) (n : Nat) (args : List Val) :
    call crate md (n + 1) .AOpcode .get_format args =
      run md (call crate md n) AOpcode_get_format args := rfl

theorem call_BaseIOpcode_get_format (md : Build) (n : Nat) (args : List Val) :
    call crate md (n + 1) .BaseIOpcode .get_format args =
      run md (call crate md n) BaseIOpcode_get_format args := rfl

theorem call_COpcode_get_format (md : Build) (n : Nat) (args : List Val) :
    call crate md (n + 1) .COpcode .get_format args =
      run md (call crate md n) COpcode_get_format args := rfl

theorem call_MOpcode_get_format (md : Build) (n : Nat) (args : List Val) :
    call crate md (n + 1) .MOpcode .get_format args =
      run md (call crate md n) MOpcode_get_format args := rfl

theorem call_PrivOpcode_get_format (md : Build) (n : Nat) (args : List Val) :
    call crate md (n + 1) .PrivOpcode .get_format args =
      run md (call crate md n) PrivOpcode_get_format args := rfl

theorem call_ZicbozOpcode_get_format (md : Build) (n : Nat) (args : List Val) :
    call crate md (n + 1) .ZicbozOpcode .get_format args =
      run md (call crate md n) ZicbozOpcode_get_format args := rfl

theorem call_ZicfissOpcode_get_format (md : Build) (n : Nat) (args : List Val) :
    call crate md (n + 1) .ZicfissOpcode .get_format args =
      run md (call crate md n) ZicfissOpcode_get_format args := rfl

theorem call_ZicntrOpcode_get_format (md : Build) (n : Nat) (args : List Val) :
    call crate md (n + 1) .ZicntrOpcode .get_format args =
      run md (call crate md n) ZicntrOpcode_get_format args := rfl

theorem call_ZicsrOpcode_get_format (md : Build) (n : Nat) (args : List Val) :
    call crate md (n + 1) .ZicsrOpcode .get_format args =
      run md (call crate md n) ZicsrOpcode_get_format args := rfl

theorem call_ZifenceiOpcode_get_format (md : Build) (n : Nat) (args : List Val) :
    call crate md (n + 1) .ZifenceiOpcode .get_format args =
      run md (call crate md n) ZifenceiOpcode_get_format args := rfl

theorem call_OpcodeKind_get_format (md : Build) (n : Nat) (args : List Val) :
    call crate md (n + 1) .OpcodeKind .get_format args =
      run md (call crate md n) OpcodeKind_get_format args := rfl

theorem call_u16_set (md : Build) (n : Nat) (args : List Val) :
    call crate md (n + 1) .u16 .«set» args =
      run md (call crate md n) u16_set args := rfl

theorem call_u32_set (md : Build) (n : Nat) (args : List Val) :
    call crate md (n + 1) .u32 .«set» args =
      run md (call crate md n) u32_set args := rfl

theorem call_u16_slice (md : Build) (n : Nat) (args : List Val) :
    call crate md (n + 1) .u16 .slice args =
      run md (call crate md n) u16_slice args := rfl

theorem call_u32_slice (md : Build) (n : Nat) (args : List Val) :
    call crate md (n + 1) .u32 .slice args =
      run md (call crate md n) u32_slice args := rfl

theorem call_u16_to_signed_nbit (md : Build) (n : Nat) (args : List Val) :
    call crate md (n + 1) .u16 .to_signed_nbit args =
      run md (call crate md n) u16_to_signed_nbit args := rfl

theorem call_u32_to_signed_nbit (md : Build) (n : Nat) (args : List Val) :
    call crate md (n + 1) .u32 .to_signed_nbit args =
      run md (call crate md n) u32_to_signed_nbit args := rfl

theorem call_c_extension_bit_16_parse_imm (md : Build) (n : Nat) (args : List Val) :
    call crate md (n + 1) .c_extension_bit_16 .parse_imm args =
      run md (call crate md n) c_extension_bit_16_parse_imm args := rfl

theorem call_zicfiss_extension_bit_16_parse_imm (md : Build) (n : Nat) (args : List Val) :
    call crate md (n + 1) .zicfiss_extension_bit_16 .parse_imm args =
      run md (call crate md n) zicfiss_extension_bit_16_parse_imm args := rfl

theorem call_u16_parse_imm (md : Build) (n : Nat) (args : List Val) :
    call crate md (n + 1) .u16 .parse_imm args =
      run md (call crate md n) u16_parse_imm args := rfl

theorem call_a_extension_bit_32_parse_imm (md : Build) (n : Nat) (args : List Val) :
    call crate md (n + 1) .a_extension_bit_32 .parse_imm args =
      run md (call crate md n) a_extension_bit_32_parse_imm args := rfl

theorem call_base_i_bit_32_parse_imm (md : Build) (n : Nat) (args : List Val) :
    call crate md (n + 1) .base_i_bit_32 .parse_imm args =
      run md (call crate md n) base_i_bit_32_parse_imm args := rfl

theorem call_m_extension_bit_32_parse_imm (md : Build) (n : Nat) (args : List Val) :
    call crate md (n + 1) .m_extension_bit_32 .parse_imm args =
      run md (call crate md n) m_extension_bit_32_parse_imm args := rfl

theorem call_priv_extension_bit_32_parse_imm (md : Build) (n : Nat) (args : List Val) :
    call crate md (n + 1) .priv_extension_bit_32 .parse_imm args =
      run md (call crate md n) priv_extension_bit_32_parse_imm args := rfl

theorem call_zicboz_extension_bit_32_parse_imm (md : Build) (n : Nat) (args : List Val) :
    call crate md (n + 1) .zicboz_extension_bit_32 .parse_imm args =
      run md (call crate md n) zicboz_extension_bit_32_parse_imm args := rfl

theorem call_zicfiss_extension_bit_32_parse_imm (md : Build) (n : Nat) (args : List Val) :
    call crate md (n + 1) .zicfiss_extension_bit_32 .parse_imm args =
      run md (call crate md n) zicfiss_extension_bit_32_parse_imm args := rfl

theorem call_zicntr_extension_bit_32_parse_imm (md : Build) (n : Nat) (args : List Val) :
    call crate md (n + 1) .zicntr_extension_bit_32 .parse_imm args =
      run md (call crate md n) zicntr_extension_bit_32_parse_imm args := rfl

theorem call_zicsr_extension_bit_32_parse_imm (md : Build) (n : Nat) (args : List Val) :
    call crate md (n + 1) .zicsr_extension_bit_32 .parse_imm args =
      run md (call crate md n) zicsr_extension_bit_32_parse_imm args := rfl

theorem call_zifencei_extension_bit_32_parse_imm (md : Build) (n : Nat) (args : List Val) :
    call crate md (n + 1) .zifencei_extension_bit_32 .parse_imm args =
      run md (call crate md n) zifencei_extension_bit_32_parse_imm args := rfl

theorem call_u32_parse_imm (md : Build) (n : Nat) (args : List Val) :
    call crate md (n + 1) .u32 .parse_imm args =
      run md (call crate md n) u32_parse_imm args := rfl

theorem call_decode_only_rv64 (md : Build) (n : Nat) (args : List Val) :
    call crate md (n + 1) .decode .only_rv64 args =
      run md (call crate md n) decode_only_rv64 args := rfl

theorem call_c_extension_bit_16_quadrant0 (md : Build) (n : Nat) (args : List Val) :
    call crate md (n + 1) .c_extension_bit_16 .quadrant0 args =
      run md (call crate md n) c_extension_bit_16_quadrant0 args := rfl

theorem call_c_extension_bit_16_quadrant1 (md : Build) (n : Nat) (args : List Val) :
    call crate md (n + 1) .c_extension_bit_16 .quadrant1 args =
      run md (call crate md n) c_extension_bit_16_quadrant1 args := rfl

theorem call_c_extension_bit_16_quadrant2 (md : Build) (n : Nat) (args : List Val) :
    call crate md (n + 1) .c_extension_bit_16 .quadrant2 args =
      run md (call crate md n) c_extension_bit_16_quadrant2 args := rfl

theorem call_c_extension_bit_16_parse_opcode (md : Build) (n : Nat) (args : List Val) :
    call crate md (n + 1) .c_extension_bit_16 .parse_opcode args =
      run md (call crate md n) c_extension_bit_16_parse_opcode args := rfl

theorem call_zicfiss_extension_bit_16_parse_opcode (md : Build) (n : Nat) (args : List Val) :
    call crate md (n + 1) .zicfiss_extension_bit_16 .parse_opcode args =
      run md (call crate md n) zicfiss_extension_bit_16_parse_opcode args := rfl

theorem call_u16_parse_extension (md : Build) (n : Nat) (args : List Val) :
    call crate md (n + 1) .u16 .parse_extension args =
      run md (call crate md n) u16_parse_extension args := rfl

theorem call_u32_parse_extension (md : Build) (n : Nat) (args : List Val) :
    call crate md (n + 1) .u32 .parse_extension args =
      run md (call crate md n) u32_parse_extension args := rfl

theorem call_u16_parse_opcode (md : Build) (n : Nat) (args : List Val) :
    call crate md (n + 1) .u16 .parse_opcode args =
      run md (call crate md n) u16_parse_opcode args := rfl

theorem call_a_extension_bit_32_parse_opcode (md : Build) (n : Nat) (args : List Val) :
    call crate md (n + 1) .a_extension_bit_32 .parse_opcode args =
      run md (call crate md n) a_extension_bit_32_parse_opcode args := rfl

theorem call_base_i_bit_32_parse_opcode (md : Build) (n : Nat) (args : List Val) :
    call crate md (n + 1) .base_i_bit_32 .parse_opcode args =
      run md (call crate md n) base_i_bit_32_parse_opcode args := rfl

theorem call_m_extension_bit_32_parse_opcode (md : Build) (n : Nat) (args : List Val) :
    call crate md (n + 1) .m_extension_bit_32 .parse_opcode args =
      run md (call crate md n) m_extension_bit_32_parse_opcode args := rfl

theorem call_priv_extension_bit_32_parse_opcode (md : Build) (n : Nat) (args : List Val) :
    call crate md (n + 1) .priv_extension_bit_32 .parse_opcode args =
      run md (call crate md n) priv_extension_bit_32_parse_opcode args := rfl

theorem call_zicboz_extension_bit_32_parse_opcode (md : Build) (n : Nat) (args : List Val) :
    call crate md (n + 1) .zicboz_extension_bit_32 .parse_opcode args =
      run md (call crate md n) zicboz_extension_bit_32_parse_opcode args := rfl

theorem call_zicfiss_extension_bit_32_parse_opcode (md : Build) (n : Nat) (args : List Val) :
    call crate md (n + 1) .zicfiss_extension_bit_32 .parse_opcode args =
      run md (call crate md n) zicfiss_extension_bit_32_parse_opcode args := rfl

theorem call_zicntr_extension_bit_32_parse_opcode (md : Build) (n : Nat) (args : List Val) :
    call crate md (n + 1) .zicntr_extension_bit_32 .parse_opcode args =
      run md (call crate md n) zicntr_extension_bit_32_parse_opcode args := rfl

theorem call_zicsr_extension_bit_32_parse_opcode (md : Build) (n : Nat) (args : List Val) :
    call crate md (n + 1) .zicsr_extension_bit_32 .parse_opcode args =
      run md (call crate md n) zicsr_extension_bit_32_parse_opcode args := rfl

theorem call_zifencei_extension_bit_32_parse_opcode (md : Build) (n : Nat) (args : List Val) :
    call crate md (n + 1) .zifencei_extension_bit_32 .parse_opcode args =
      run md (call crate md n) zifencei_extension_bit_32_parse_opcode args := rfl

theorem call_u32_parse_opcode (md : Build) (n : Nat) (args : List Val) :
    call crate md (n + 1) .u32 .parse_opcode args =
      run md (call crate md n) u32_parse_opcode args := rfl

theorem call_c_extension_bit_16_parse_rd (md : Build) (n : Nat) (args : List Val) :
    call crate md (n + 1) .c_extension_bit_16 .parse_rd args =
      run md (call crate md n) c_extension_bit_16_parse_rd args := rfl

theorem call_zicfiss_extension_bit_16_parse_rd (md : Build) (n : Nat) (args : List Val) :
    call crate md (n + 1) .zicfiss_extension_bit_16 .parse_rd args =
      run md (call crate md n) zicfiss_extension_bit_16_parse_rd args := rfl

theorem call_u16_parse_rd (md : Build) (n : Nat) (args : List Val) :
    call crate md (n + 1) .u16 .parse_rd args =
      run md (call crate md n) u16_parse_rd args := rfl

theorem call_a_extension_bit_32_parse_rd (md : Build) (n : Nat) (args : List Val) :
    call crate md (n + 1) .a_extension_bit_32 .parse_rd args =
      run md (call crate md n) a_extension_bit_32_parse_rd args := rfl

theorem call_base_i_bit_32_parse_rd (md : Build) (n : Nat) (args : List Val) :
    call crate md (n + 1) .base_i_bit_32 .parse_rd args =
      run md (call crate md n) base_i_bit_32_parse_rd args := rfl

theorem call_m_extension_bit_32_parse_rd (md : Build) (n : Nat) (args : List Val) :
    call crate md (n + 1) .m_extension_bit_32 .parse_rd args =
      run md (call crate md n) m_extension_bit_32_parse_rd args := rfl

theorem call_priv_extension_bit_32_parse_rd (md : Build) (n : Nat) (args : List Val) :
    call crate md (n + 1) .priv_extension_bit_32 .parse_rd args =
      run md (call crate md n) priv_extension_bit_32_parse_rd args := rfl

theorem call_zicboz_extension_bit_32_parse_rd (md : Build) (n : Nat) (args : List Val) :
    call crate md (n + 1) .zicboz_extension_bit_32 .parse_rd args =
      run md (call crate md n) zicboz_extension_bit_32_parse_rd args := rfl

theorem call_zicfiss_extension_bit_32_parse_rd (md : Build) (n : Nat) (args : List Val) :
    call crate md (n + 1) .zicfiss_extension_bit_32 .parse_rd args =
      run md (call crate md n) zicfiss_extension_bit_32_parse_rd args := rfl

theorem call_zicntr_extension_bit_32_parse_rd (md : Build) (n : Nat) (args : List Val) :
    call crate md (n + 1) .zicntr_extension_bit_32 .parse_rd args =
      run md (call crate md n) zicntr_extension_bit_32_parse_rd args := rfl

theorem call_zicsr_extension_bit_32_parse_rd (md : Build) (n : Nat) (args : List Val) :
    call crate md (n + 1) .zicsr_extension_bit_32 .parse_rd args =
      run md (call crate md n) zicsr_extension_bit_32_parse_rd args := rfl

theorem call_zifencei_extension_bit_32_parse_rd (md : Build) (n : Nat) (args : List Val) :
    call crate md (n + 1) .zifencei_extension_bit_32 .parse_rd args =
      run md (call crate md n) zifencei_extension_bit_32_parse_rd args := rfl

theorem call_u32_parse_rd (md : Build) (n : Nat) (args : List Val) :
    call crate md (n + 1) .u32 .parse_rd args =
      run md (call crate md n) u32_parse_rd args := rfl

theorem call_c_extension_bit_16_parse_rs1 (md : Build) (n : Nat) (args : List Val) :
    call crate md (n + 1) .c_extension_bit_16 .parse_rs1 args =
      run md (call crate md n) c_extension_bit_16_parse_rs1 args := rfl

theorem call_zicfiss_extension_bit_16_parse_rs1 (md : Build) (n : Nat) (args : List Val) :
    call crate md (n + 1) .zicfiss_extension_bit_16 .parse_rs1 args =
      run md (call crate md n) zicfiss_extension_bit_16_parse_rs1 args := rfl

theorem call_u16_parse_rs1 (md : Build) (n : Nat) (args : List Val) :
    call crate md (n + 1) .u16 .parse_rs1 args =
      run md (call crate md n) u16_parse_rs1 args := rfl

theorem call_a_extension_bit_32_parse_rs1 (md : Build) (n : Nat) (args : List Val) :
    call crate md (n + 1) .a_extension_bit_32 .parse_rs1 args =
      run md (call crate md n) a_extension_bit_32_parse_rs1 args := rfl

theorem call_base_i_bit_32_parse_rs1 (md : Build) (n : Nat) (args : List Val) :
    call crate md (n + 1) .base_i_bit_32 .parse_rs1 args =
      run md (call crate md n) base_i_bit_32_parse_rs1 args := rfl

theorem call_m_extension_bit_32_parse_rs1 (md : Build) (n : Nat) (args : List Val) :
    call crate md (n + 1) .m_extension_bit_32 .parse_rs1 args =
      run md (call crate md n) m_extension_bit_32_parse_rs1 args := rfl

theorem call_priv_extension_bit_32_parse_rs1 (md : Build) (n : Nat) (args : List Val) :
    call crate md (n + 1) .priv_extension_bit_32 .parse_rs1 args =
      run md (call crate md n) priv_extension_bit_32_parse_rs1 args := rfl

theorem call_zicboz_extension_bit_32_parse_rs1 (md : Build) (n : Nat) (args : List Val) :
    call crate md (n + 1) .zicboz_extension_bit_32 .parse_rs1 args =
      run md (call crate md n) zicboz_extension_bit_32_parse_rs1 args := rfl

theorem call_zicfiss_extension_bit_32_parse_rs1 (md : Build) (n : Nat) (args : List Val) :
    call crate md (n + 1) .zicfiss_extension_bit_32 .parse_rs1 args =
      run md (call crate md n) zicfiss_extension_bit_32_parse_rs1 args := rfl

theorem call_zicntr_extension_bit_32_parse_rs1 (md : Build) (n : Nat) (args : List Val) :
    call crate md (n + 1) .zicntr_extension_bit_32 .parse_rs1 args =
      run md (call crate md n) zicntr_extension_bit_32_parse_rs1 args := rfl

theorem call_zicsr_extension_bit_32_parse_rs1 (md : Build) (n : Nat) (args : List Val) :
    call crate md (n + 1) .zicsr_extension_bit_32 .parse_rs1 args =
      run md (call crate md n) zicsr_extension_bit_32_parse_rs1 args := rfl

theorem call_zifencei_extension_bit_32_parse_rs1 (md : Build) (n : Nat) (args : List Val) :
    call crate md (n + 1) .zifencei_extension_bit_32 .parse_rs1 args =
      run md (call crate md n) zifencei_extension_bit_32_parse_rs1 args := rfl

theorem call_u32_parse_rs1 (md : Build) (n : Nat) (args : List Val) :
    call crate md (n + 1) .u32 .parse_rs1 args =
      run md (call crate md n) u32_parse_rs1 args := rfl

theorem call_c_extension_bit_16_parse_rs2 (md : Build) (n : Nat) (args : List Val) :
    call crate md (n + 1) .c_extension_bit_16 .parse_rs2 args =
      run md (call crate md n) c_extension_bit_16_parse_rs2 args := rfl

theorem call_zicfiss_extension_bit_16_parse_rs2 (md : Build) (n : Nat) (args : List Val) :
    call crate md (n + 1) .zicfiss_extension_bit_16 .parse_rs2 args =
      run md (call crate md n) zicfiss_extension_bit_16_parse_rs2 args := rfl

theorem call_u16_parse_rs2 (md : Build) (n : Nat) (args : List Val) :
    call crate md (n + 1) .u16 .parse_rs2 args =
      run md (call crate md n) u16_parse_rs2 args := rfl

theorem call_a_extension_bit_32_parse_rs2 (md : Build) (n : Nat) (args : List Val) :
    call crate md (n + 1) .a_extension_bit_32 .parse_rs2 args =
      run md (call crate md n) a_extension_bit_32_parse_rs2 args := rfl

theorem call_base_i_bit_32_parse_rs2 (md : Build) (n : Nat) (args : List Val) :
    call crate md (n + 1) .base_i_bit_32 .parse_rs2 args =
      run md (call crate md n) base_i_bit_32_parse_rs2 args := rfl

theorem call_m_extension_bit_32_parse_rs2 (md : Build) (n : Nat) (args : List Val) :
    call crate md (n + 1) .m_extension_bit_32 .parse_rs2 args =
      run md (call crate md n) m_extension_bit_32_parse_rs2 args := rfl

theorem call_priv_extension_bit_32_parse_rs2 (md : Build) (n : Nat) (args : List Val) :
    call crate md (n + 1) .priv_extension_bit_32 .parse_rs2 args =
      run md (call crate md n) priv_extension_bit_32_parse_rs2 args := rfl

theorem call_zicboz_extension_bit_32_parse_rs2 (md : Build) (n : Nat) (args : List Val) :
    call crate md (n + 1) .zicboz_extension_bit_32 .parse_rs2 args =
      run md (call crate md n) zicboz_extension_bit_32_parse_rs2 args := rfl

theorem call_zicfiss_extension_bit_32_parse_rs2 (md : Build) (n : Nat) (args : List Val) :
    call crate md (n + 1) .zicfiss_extension_bit_32 .parse_rs2 args =
      run md (call crate md n) zicfiss_extension_bit_32_parse_rs2 args := rfl

theorem call_zicntr_extension_bit_32_parse_rs2 (md : Build) (n : Nat) (args : List Val) :
    call crate md (n + 1) .zicntr_extension_bit_32 .parse_rs2 args =
      run md (call crate md n) zicntr_extension_bit_32_parse_rs2 args := rfl

theorem call_zicsr_extension_bit_32_parse_rs2 (md : Build) (n : Nat) (args : List Val) :
    call crate md (n + 1) .zicsr_extension_bit_32 .parse_rs2 args =
      run md (call crate md n) zicsr_extension_bit_32_parse_rs2 args := rfl

theorem call_zifencei_extension_bit_32_parse_rs2 (md : Build) (n : Nat) (args : List Val) :
    call crate md (n + 1) .zifencei_extension_bit_32 .parse_rs2 args =
      run md (call crate md n) zifencei_extension_bit_32_parse_rs2 args := rfl

theorem call_u32_parse_rs2 (md : Build) (n : Nat) (args : List Val) :
    call crate md (n + 1) .u32 .parse_rs2 args =
      run md (call crate md n) u32_parse_rs2 args := rfl

theorem call_u16_decode (md : Build) (n : Nat) (args : List Val) :
    call crate md (n + 1) .u16 .decode args =
      run md (call crate md n) u16_decode args := rfl

theorem call_u32_decode (md : Build) (n : Nat) (args : List Val) :
    call crate md (n + 1) .u32 .decode args =
      run md (call crate md n) u32_decode args := rfl

theorem call_Instruction_try_from (md : Build) (n : Nat) (args : List Val) :
    call crate md (n + 1) .Instruction .try_from args =
      run md (call crate md n) Instruction_try_from args := rfl

theorem call_instruction_reg2str (md : Build) (n : Nat) (args : List Val) :
    call crate md (n + 1) .instruction .reg2str args =
      run md (call crate md n) instruction_reg2str args := rfl

theorem call_AOpcode_fmt (md : Build) (n : Nat) (args : List Val) :
    call crate md (n + 1) .AOpcode .fmt args =
      run md (call crate md n) AOpcode_fmt args := rfl

theorem call_BaseIOpcode_fmt (md : Build) (n : Nat) (args : List Val) :
    call crate md (n + 1) .BaseIOpcode .fmt args =
      run md (call crate md n) BaseIOpcode_fmt args := rfl

theorem call_COpcode_fmt (md : Build) (n : Nat) (args : List Val) :
    call crate md (n + 1) .COpcode .fmt args =
      run md (call crate md n) COpcode_fmt args := rfl

theorem call_MOpcode_fmt (md : Build) (n : Nat) (args : List Val) :
    call crate md (n + 1) .MOpcode .fmt args =
      run md (call crate md n) MOpcode_fmt args := rfl

theorem call_PrivOpcode_fmt (md : Build) (n : Nat) (args : List Val) :
    call crate md (n + 1) .PrivOpcode .fmt args =
      run md (call crate md n) PrivOpcode_fmt args := rfl

theorem call_ZicbozOpcode_fmt (md : Build) (n : Nat) (args : List Val) :
    call crate md (n + 1) .ZicbozOpcode .fmt args =
      run md (call crate md n) ZicbozOpcode_fmt args := rfl

theorem call_ZicfissOpcode_fmt (md : Build) (n : Nat) (args : List Val) :
    call crate md (n + 1) .ZicfissOpcode .fmt args =
      run md (call crate md n) ZicfissOpcode_fmt args := rfl

theorem call_ZicntrOpcode_fmt (md : Build) (n : Nat) (args : List Val) :
    call crate md (n + 1) .ZicntrOpcode .fmt args =
      run md (call crate md n) ZicntrOpcode_fmt args := rfl

theorem call_ZicsrOpcode_fmt (md : Build) (n : Nat) (args : List Val) :
    call crate md (n + 1) .ZicsrOpcode .fmt args =
      run md (call crate md n) ZicsrOpcode_fmt args := rfl

theorem call_ZifenceiOpcode_fmt (md : Build) (n : Nat) (args : List Val) :
    call crate md (n + 1) .ZifenceiOpcode .fmt args =
      run md (call crate md n) ZifenceiOpcode_fmt args := rfl

theorem call_OpcodeKind_fmt (md : Build) (n : Nat) (args : List Val) :
    call crate md (n + 1) .OpcodeKind .fmt args =
      run md (call crate md n) OpcodeKind_fmt args := rfl

theorem call_Instruction_fmt (md : Build) (n : Nat) (args : List Val) :
    call crate md (n + 1) .Instruction .fmt args =
      run md (call crate md n) Instruction_fmt args := rfl

end Raki.Source
