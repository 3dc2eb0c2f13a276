import Verif.Source.Reach
import Verif.Source.Codes
/-!
# Calls that reach the branches, part 2
-/

namespace Raki.Source

/-- Branches in the order of the program, each with a call that reaches it. -/
def reaching2 : List (Branch × PublicCall) := [
  (⟨.MOpcode, .fmt, 12⟩, .showOpcode (.M .REMUW)),
  (⟨.MOpcode, .get_format, 0⟩, .getFormat (.M .MUL)),
  (⟨.PrivOpcode, .fmt, 0⟩, .showOpcode (.Priv .SRET)),
  (⟨.PrivOpcode, .fmt, 1⟩, .showOpcode (.Priv .MRET)),
  (⟨.PrivOpcode, .fmt, 2⟩, .showOpcode (.Priv .WFI)),
  (⟨.PrivOpcode, .fmt, 3⟩, .showOpcode (.Priv .SFENCE_VMA)),
  (⟨.PrivOpcode, .get_format, 0⟩, .getFormat (.Priv .MRET)),
  (⟨.PrivOpcode, .get_format, 1⟩, .getFormat (.Priv .SFENCE_VMA)),
  (⟨.ZicbozOpcode, .fmt, 0⟩, .showOpcode (.Zicboz .CBO_ZERO)),
  (⟨.ZicbozOpcode, .get_format, 0⟩, .getFormat (.Zicboz .CBO_ZERO)),
  (⟨.ZicfissOpcode, .fmt, 0⟩, .showOpcode (.Zicfiss .SSPUSH)),
  (⟨.ZicfissOpcode, .fmt, 1⟩, .showOpcode (.Zicfiss .C_SSPUSH)),
  (⟨.ZicfissOpcode, .fmt, 2⟩, .showOpcode (.Zicfiss .SSPOPCHK)),
  (⟨.ZicfissOpcode, .fmt, 3⟩, .showOpcode (.Zicfiss .C_SSPOPCHK)),
  (⟨.ZicfissOpcode, .fmt, 4⟩, .showOpcode (.Zicfiss .SSRDP)),
  (⟨.ZicfissOpcode, .fmt, 5⟩, .showOpcode (.Zicfiss .SSAMOSWAP_W)),
  (⟨.ZicfissOpcode, .fmt, 6⟩, .showOpcode (.Zicfiss .SSAMOSWAP_D)),
  (⟨.ZicfissOpcode, .get_format, 0⟩, .getFormat (.Zicfiss .SSPUSH)),
  (⟨.ZicfissOpcode, .get_format, 1⟩, .getFormat (.Zicfiss .SSPOPCHK)),
  (⟨.ZicfissOpcode, .get_format, 2⟩, .getFormat (.Zicfiss .SSRDP)),
  (⟨.ZicfissOpcode, .get_format, 3⟩, .getFormat (.Zicfiss .SSAMOSWAP_W)),
  (⟨.ZicfissOpcode, .get_format, 4⟩, .getFormat (.Zicfiss .C_SSPUSH)),
  (⟨.ZicntrOpcode, .fmt, 0⟩, .showOpcode (.Zicntr .RDCYCLE_H)),
  (⟨.ZicntrOpcode, .fmt, 1⟩, .showOpcode (.Zicntr .RDTIME_H)),
  (⟨.ZicntrOpcode, .fmt, 2⟩, .showOpcode (.Zicntr .RDINSTRET_H)),
  (⟨.ZicntrOpcode, .fmt, 3⟩, .showOpcode (.Zicntr .RDCYCLE)),
  (⟨.ZicntrOpcode, .fmt, 4⟩, .showOpcode (.Zicntr .RDTIME)),
  (⟨.ZicntrOpcode, .fmt, 5⟩, .showOpcode (.Zicntr .RDINSTRET)),
  (⟨.ZicntrOpcode, .get_format, 0⟩, .getFormat (.Zicntr .RDCYCLE_H)),
  (⟨.ZicsrOpcode, .fmt, 0⟩, .showOpcode (.Zicsr .CSRRW)),
  (⟨.ZicsrOpcode, .fmt, 1⟩, .showOpcode (.Zicsr .CSRRS)),
  (⟨.ZicsrOpcode, .fmt, 2⟩, .showOpcode (.Zicsr .CSRRC)),
  (⟨.ZicsrOpcode, .fmt, 3⟩, .showOpcode (.Zicsr .CSRRWI)),
  (⟨.ZicsrOpcode, .fmt, 4⟩, .showOpcode (.Zicsr .CSRRSI)),
  (⟨.ZicsrOpcode, .fmt, 5⟩, .showOpcode (.Zicsr .CSRRCI)),
  (⟨.ZicsrOpcode, .get_format, 0⟩, .getFormat (.Zicsr .CSRRW)),
  (⟨.ZicsrOpcode, .get_format, 1⟩, .getFormat (.Zicsr .CSRRWI)),
  (⟨.ZifenceiOpcode, .fmt, 0⟩, .showOpcode (.Zifencei .FENCE)),
  (⟨.ZifenceiOpcode, .get_format, 0⟩, .getFormat (.Zifencei .FENCE)),
  (⟨.u16, .decode, 0⟩, .decode16 0 .Rv32),
  (⟨.u16, .decode, 1⟩, .tryFrom 1),
  (⟨.u16, .parse_opcode, 0⟩, .tryFrom 1),
  (⟨.u16, .parse_opcode, 1⟩, .parseOpcode16 24705 .Rv64),
  (⟨.u16, .parse_rd, 0⟩, .tryFrom 1),
  (⟨.u16, .parse_rd, 1⟩, .parseRd16 0 (.Zicfiss .SSPUSH)),
  (⟨.u16, .parse_rd, 2⟩, .parseRd16 0 (.BaseI .LUI)),
  (⟨.u16, .parse_rs1, 0⟩, .tryFrom 1),
  (⟨.u16, .parse_rs1, 1⟩, .parseRs1_16 0 (.Zicfiss .SSPUSH)),
  (⟨.u16, .parse_rs1, 2⟩, .parseRs1_16 0 (.BaseI .LUI)),
  (⟨.u16, .parse_rs2, 0⟩, .tryFrom 1),
  (⟨.u16, .parse_rs2, 1⟩, .parseRs2_16 0 (.Zicfiss .SSPUSH)),
  (⟨.u16, .parse_rs2, 2⟩, .parseRs2_16 0 (.BaseI .LUI)),
  (⟨.u16, .parse_imm, 0⟩, .tryFrom 1),
  (⟨.u16, .parse_imm, 1⟩, .parseImm16 0 (.Zicfiss .SSPUSH) .Rv32),
  (⟨.u16, .parse_imm, 2⟩, .parseImm16 0 (.BaseI .LUI) .Rv32),
  (⟨.u16, .parse_extension, 0⟩, .parseOpcode16 24705 .Rv64),
  (⟨.u16, .parse_extension, 1⟩, .tryFrom 1),
  (⟨.u32, .parse_opcode, 0⟩, .tryFrom 19),
  (⟨.u32, .parse_opcode, 1⟩, .parseOpcode32 33554483 .Rv32),
  (⟨.u32, .parse_opcode, 2⟩, .parseOpcode32 47 .Rv32),
  (⟨.u32, .parse_opcode, 3⟩, .parseOpcode32 15 .Rv32),
  (⟨.u32, .parse_opcode, 4⟩, .parseOpcode32 4211 .Rv32),
  (⟨.u32, .parse_opcode, 5⟩, .parseOpcode32 1207959599 .Rv32),
  (⟨.u32, .parse_opcode, 6⟩, .parseOpcode32 3221233779 .Rv32),
  (⟨.u32, .parse_opcode, 7⟩, .parseOpcode32 8207 .Rv32),
  (⟨.u32, .parse_opcode, 8⟩, .parseOpcode32 1073741939 .Rv32),
  (⟨.u32, .parse_opcode, 10⟩, .parseOpcode32 4111 .Rv32),
  (⟨.u32, .parse_rd, 0⟩, .tryFrom 19),
  (⟨.u32, .parse_rd, 1⟩, .parseRd32 0 (.M .MUL)),
  (⟨.u32, .parse_rd, 2⟩, .parseRd32 0 (.A .LR_W)),
  (⟨.u32, .parse_rd, 3⟩, .parseRd32 0 (.Zifencei .FENCE)),
  (⟨.u32, .parse_rd, 4⟩, .parseRd32 0 (.Zicsr .CSRRW)),
  (⟨.u32, .parse_rd, 5⟩, .parseRd32 0 (.Zicfiss .SSPUSH)),
  (⟨.u32, .parse_rd, 6⟩, .parseRd32 0 (.Zicntr .RDCYCLE_H)),
  (⟨.u32, .parse_rd, 7⟩, .parseRd32 0 (.Zicboz .CBO_ZERO)),
  (⟨.u32, .parse_rd, 8⟩, .parseRd32 0 (.Priv .MRET)),
  (⟨.u32, .parse_rd, 9⟩, .parseRd32 0 (.C .ADDI4SPN)),
  (⟨.u32, .parse_rs1, 0⟩, .tryFrom 19),
  (⟨.u32, .parse_rs1, 1⟩, .parseRs1_32 0 (.M .MUL)),
  (⟨.u32, .parse_rs1, 2⟩, .parseRs1_32 0 (.A .LR_W)),
  (⟨.u32, .parse_rs1, 3⟩, .parseRs1_32 0 (.Zifencei .FENCE)),
  (⟨.u32, .parse_rs1, 4⟩, .parseRs1_32 0 (.Zicsr .CSRRW)),
  (⟨.u32, .parse_rs1, 5⟩, .parseRs1_32 0 (.Zicfiss .SSPUSH)),
  (⟨.u32, .parse_rs1, 6⟩, .parseRs1_32 0 (.Zicntr .RDCYCLE_H)),
  (⟨.u32, .parse_rs1, 7⟩, .parseRs1_32 0 (.Zicboz .CBO_ZERO)),
  (⟨.u32, .parse_rs1, 8⟩, .parseRs1_32 0 (.Priv .MRET)),
  (⟨.u32, .parse_rs1, 9⟩, .parseRs1_32 0 (.C .ADDI4SPN)),
  (⟨.u32, .parse_rs2, 0⟩, .tryFrom 19),
  (⟨.u32, .parse_rs2, 1⟩, .parseRs2_32 0 (.M .MUL)),
  (⟨.u32, .parse_rs2, 2⟩, .parseRs2_32 0 (.A .LR_W)),
  (⟨.u32, .parse_rs2, 3⟩, .parseRs2_32 0 (.Zifencei .FENCE)),
  (⟨.u32, .parse_rs2, 4⟩, .parseRs2_32 0 (.Zicsr .CSRRW)),
  (⟨.u32, .parse_rs2, 5⟩, .parseRs2_32 0 (.Zicfiss .SSPUSH)),
  (⟨.u32, .parse_rs2, 6⟩, .parseRs2_32 0 (.Zicntr .RDCYCLE_H)),
  (⟨.u32, .parse_rs2, 7⟩, .parseRs2_32 0 (.Zicboz .CBO_ZERO)),
  (⟨.u32, .parse_rs2, 8⟩, .parseRs2_32 0 (.Priv .MRET)),
  (⟨.u32, .parse_rs2, 9⟩, .parseRs2_32 0 (.C .ADDI4SPN)),
  (⟨.u32, .parse_imm, 0⟩, .tryFrom 19),
  (⟨.u32, .parse_imm, 1⟩, .parseImm32 0 (.M .MUL) .Rv32),
  (⟨.u32, .parse_imm, 2⟩, .parseImm32 0 (.A .LR_W) .Rv32),
  (⟨.u32, .parse_imm, 3⟩, .parseImm32 0 (.Zifencei .FENCE) .Rv32),
  (⟨.u32, .parse_imm, 4⟩, .parseImm32 0 (.Zicsr .CSRRW) .Rv32),
  (⟨.u32, .parse_imm, 5⟩, .parseImm32 0 (.Zicfiss .SSPUSH) .Rv32),
  (⟨.u32, .parse_imm, 6⟩, .parseImm32 0 (.Zicntr .RDCYCLE_H) .Rv32),
  (⟨.u32, .parse_imm, 7⟩, .parseImm32 0 (.Zicboz .CBO_ZERO) .Rv32),
  (⟨.u32, .parse_imm, 8⟩, .parseImm32 0 (.Priv .MRET) .Rv32),
  (⟨.u32, .parse_imm, 9⟩, .parseImm32 0 (.C .ADDI4SPN) .Rv32),
  (⟨.u32, .parse_extension, 0⟩, .parseOpcode32 15 .Rv32),
  (⟨.u32, .parse_extension, 1⟩, .parseOpcode32 15 .Rv32),
  (⟨.u32, .parse_extension, 2⟩, .parseOpcode32 8207 .Rv32),
  (⟨.u32, .parse_extension, 3⟩, .parseOpcode32 4111 .Rv32),
  (⟨.u32, .parse_extension, 4⟩, .parseOpcode32 47 .Rv32),
  (⟨.u32, .parse_extension, 5⟩, .parseOpcode32 47 .Rv32),
  (⟨.u32, .parse_extension, 6⟩, .parseOpcode32 1207959599 .Rv32),
  (⟨.u32, .parse_extension, 7⟩, .parseOpcode32 805306415 .Rv32),
  (⟨.u32, .parse_extension, 8⟩, .parseOpcode32 51 .Rv32),
  (⟨.u32, .parse_extension, 9⟩, .parseOpcode32 33554483 .Rv32),
  (⟨.u32, .parse_extension, 10⟩, .parseOpcode32 51 .Rv32),
  (⟨.u32, .parse_extension, 11⟩, .parseOpcode32 59 .Rv32),
  (⟨.u32, .parse_extension, 12⟩, .parseOpcode32 59 .Rv32),
  (⟨.u32, .parse_extension, 13⟩, .parseOpcode32 33554491 .Rv32),
  (⟨.u32, .parse_extension, 14⟩, .parseOpcode32 67108923 .Rv32),
  (⟨.u32, .parse_extension, 15⟩, .parseOpcode32 115 .Rv32),
  (⟨.u32, .parse_extension, 16⟩, .parseOpcode32 115 .Rv32),
  (⟨.u32, .parse_extension, 17⟩, .parseOpcode32 115 .Rv32),
  (⟨.u32, .parse_extension, 18⟩, .parseOpcode32 1073741939 .Rv32),
  (⟨.u32, .parse_extension, 19⟩, .parseOpcode32 8307 .Rv32),
  (⟨.u32, .parse_extension, 20⟩, .parseOpcode32 3221233779 .Rv32),
  (⟨.u32, .parse_extension, 21⟩, .parseOpcode32 8307 .Rv32),
  (⟨.u32, .parse_extension, 22⟩, .parseOpcode32 16499 .Rv32),
  (⟨.u32, .parse_extension, 23⟩, .parseOpcode32 4211 .Rv32),
  (⟨.u32, .parse_extension, 24⟩, .tryFrom 19),
  (⟨.a_extension_bit_32, .parse_opcode, 0⟩, .parseOpcode32 47 .Rv32),
  (⟨.a_extension_bit_32, .parse_opcode, 1⟩, .parseOpcode32 8239 .Rv32),
  (⟨.a_extension_bit_32, .parse_opcode, 2⟩, .parseOpcode32 268443695 .Rv32),
  (⟨.a_extension_bit_32, .parse_opcode, 3⟩, .parseOpcode32 402661423 .Rv32),
  (⟨.a_extension_bit_32, .parse_opcode, 4⟩, .parseOpcode32 134225967 .Rv32),
  (⟨.a_extension_bit_32, .parse_opcode, 5⟩, .parseOpcode32 8239 .Rv32),
  (⟨.a_extension_bit_32, .parse_opcode, 6⟩, .parseOpcode32 536879151 .Rv32),
  (⟨.a_extension_bit_32, .parse_opcode, 7⟩, .parseOpcode32 1610620975 .Rv32),
  (⟨.a_extension_bit_32, .parse_opcode, 8⟩, .parseOpcode32 1073750063 .Rv32),
  (⟨.a_extension_bit_32, .parse_opcode, 9⟩, .parseOpcode32 2147491887 .Rv32),
  (⟨.a_extension_bit_32, .parse_opcode, 10⟩, .parseOpcode32 2684362799 .Rv32),
  (⟨.a_extension_bit_32, .parse_opcode, 11⟩, .parseOpcode32 3221233711 .Rv32),
  (⟨.a_extension_bit_32, .parse_opcode, 12⟩, .parseOpcode32 3858767919 .Rv32),
  (⟨.a_extension_bit_32, .parse_opcode, 14⟩, .parseOpcode32 12335 .Rv32),
  (⟨.a_extension_bit_32, .parse_opcode, 15⟩, .parseOpcode32 268447791 .Rv32),
  (⟨.a_extension_bit_32, .parse_opcode, 16⟩, .parseOpcode32 402665519 .Rv32),
  (⟨.a_extension_bit_32, .parse_opcode, 17⟩, .parseOpcode32 134230063 .Rv32),
  (⟨.a_extension_bit_32, .parse_opcode, 18⟩, .parseOpcode32 12335 .Rv32),
  (⟨.a_extension_bit_32, .parse_opcode, 19⟩, .parseOpcode32 536883247 .Rv32),
  (⟨.a_extension_bit_32, .parse_opcode, 20⟩, .parseOpcode32 1610625071 .Rv32),
  (⟨.a_extension_bit_32, .parse_opcode, 21⟩, .parseOpcode32 1073754159 .Rv32),
  (⟨.a_extension_bit_32, .parse_opcode, 22⟩, .parseOpcode32 2147495983 .Rv32),
  (⟨.a_extension_bit_32, .parse_opcode, 23⟩, .parseOpcode32 2684366895 .Rv32),
  (⟨.a_extension_bit_32, .parse_opcode, 24⟩, .parseOpcode32 3221237807 .Rv32),
  (⟨.a_extension_bit_32, .parse_opcode, 25⟩, .parseOpcode32 3858772015 .Rv32),
  (⟨.a_extension_bit_32, .parse_opcode, 27⟩, .parseOpcode32 47 .Rv32),
  (⟨.a_extension_bit_32, .parse_rd, 0⟩, .parseRd32 0 (.A .LR_W)),
  (⟨.a_extension_bit_32, .parse_rs1, 0⟩, .parseRs1_32 0 (.A .LR_W)),
  (⟨.a_extension_bit_32, .parse_rs2, 0⟩, .parseRs2_32 0 (.A .SC_W)),
  (⟨.a_extension_bit_32, .parse_rs2, 1⟩, .parseRs2_32 0 (.A .LR_W)),
  (⟨.a_extension_bit_32, .parse_imm, 0⟩, .parseImm32 0 (.A .LR_W) .Rv32),
  (⟨.base_i_bit_32, .parse_opcode, 0⟩, .parseOpcode32 55 .Rv32),
  (⟨.base_i_bit_32, .parse_opcode, 1⟩, .parseOpcode32 23 .Rv32),
  (⟨.base_i_bit_32, .parse_opcode, 2⟩, .parseOpcode32 111 .Rv32),
  (⟨.base_i_bit_32, .parse_opcode, 3⟩, .parseOpcode32 103 .Rv32),
  (⟨.base_i_bit_32, .parse_opcode, 4⟩, .parseOpcode32 99 .Rv32),
  (⟨.base_i_bit_32, .parse_opcode, 5⟩, .parseOpcode32 99 .Rv32),
  (⟨.base_i_bit_32, .parse_opcode, 6⟩, .parseOpcode32 4195 .Rv32),
  (⟨.base_i_bit_32, .parse_opcode, 7⟩, .parseOpcode32 16483 .Rv32),
  (⟨.base_i_bit_32, .parse_opcode, 8⟩, .parseOpcode32 20579 .Rv32),
  (⟨.base_i_bit_32, .parse_opcode, 9⟩, .parseOpcode32 24675 .Rv32),
  (⟨.base_i_bit_32, .parse_opcode, 10⟩, .parseOpcode32 28771 .Rv32),
  (⟨.base_i_bit_32, .parse_opcode, 11⟩, .parseOpcode32 8291 .Rv32),
  (⟨.base_i_bit_32, .parse_opcode, 12⟩, .parseOpcode32 3 .Rv32),
  (⟨.base_i_bit_32, .parse_opcode, 13⟩, .parseOpcode32 3 .Rv32),
  (⟨.base_i_bit_32, .parse_opcode, 14⟩, .parseOpcode32 4099 .Rv32),
  (⟨.base_i_bit_32, .parse_opcode, 15⟩, .parseOpcode32 8195 .Rv32),
  (⟨.base_i_bit_32, .parse_opcode, 16⟩, .parseOpcode32 12291 .Rv32),
  (⟨.base_i_bit_32, .parse_opcode, 17⟩, .parseOpcode32 16387 .Rv32),
  (⟨.base_i_bit_32, .parse_opcode, 18⟩, .parseOpcode32 20483 .Rv32),
  (⟨.base_i_bit_32, .parse_opcode, 19⟩, .parseOpcode32 24579 .Rv32),
  (⟨.base_i_bit_32, .parse_opcode, 20⟩, .parseOpcode32 28675 .Rv32),
  (⟨.base_i_bit_32, .parse_opcode, 21⟩, .parseOpcode32 35 .Rv32),
  (⟨.base_i_bit_32, .parse_opcode, 22⟩, .parseOpcode32 35 .Rv32),
  (⟨.base_i_bit_32, .parse_opcode, 23⟩, .parseOpcode32 4131 .Rv32),
  (⟨.base_i_bit_32, .parse_opcode, 24⟩, .parseOpcode32 8227 .Rv32),
  (⟨.base_i_bit_32, .parse_opcode, 25⟩, .parseOpcode32 12323 .Rv32),
  (⟨.base_i_bit_32, .parse_opcode, 26⟩, .parseOpcode32 16419 .Rv32),
  (⟨.base_i_bit_32, .parse_opcode, 27⟩, .tryFrom 19),
  (⟨.base_i_bit_32, .parse_opcode, 28⟩, .tryFrom 19),
  (⟨.base_i_bit_32, .parse_opcode, 29⟩, .parseOpcode32 4115 .Rv32),
  (⟨.base_i_bit_32, .parse_opcode, 30⟩, .parseOpcode32 4115 .Rv32),
  (⟨.base_i_bit_32, .parse_opcode, 31⟩, .parseOpcode32 4115 .Rv32),
  (⟨.base_i_bit_32, .parse_opcode, 32⟩, .parseOpcode32 1073745939 .Rv32),
  (⟨.base_i_bit_32, .parse_opcode, 33⟩, .parseOpcode32 4115 .Rv64),
  (⟨.base_i_bit_32, .parse_opcode, 34⟩, .parseOpcode32 4115 .Rv64),
  (⟨.base_i_bit_32, .parse_opcode, 35⟩, .parseOpcode32 1073745939 .Rv64),
  (⟨.base_i_bit_32, .parse_opcode, 36⟩, .parseOpcode32 8211 .Rv32),
  (⟨.base_i_bit_32, .parse_opcode, 37⟩, .parseOpcode32 12307 .Rv32),
  (⟨.base_i_bit_32, .parse_opcode, 38⟩, .parseOpcode32 16403 .Rv32),
  (⟨.base_i_bit_32, .parse_opcode, 39⟩, .parseOpcode32 20499 .Rv32),
  (⟨.base_i_bit_32, .parse_opcode, 40⟩, .parseOpcode32 20499 .Rv32),
  (⟨.base_i_bit_32, .parse_opcode, 41⟩, .parseOpcode32 20499 .Rv32),
  (⟨.base_i_bit_32, .parse_opcode, 42⟩, .parseOpcode32 1073762323 .Rv32),
  (⟨.base_i_bit_32, .parse_opcode, 43⟩, .parseOpcode32 33574931 .Rv32),
  (⟨.base_i_bit_32, .parse_opcode, 44⟩, .parseOpcode32 20499 .Rv64),
  (⟨.base_i_bit_32, .parse_opcode, 45⟩, .parseOpcode32 20499 .Rv64),
  (⟨.base_i_bit_32, .parse_opcode, 46⟩, .parseOpcode32 1073762323 .Rv64),
  (⟨.base_i_bit_32, .parse_opcode, 47⟩, .parseOpcode32 67129363 .Rv64),
  (⟨.base_i_bit_32, .parse_opcode, 48⟩, .parseOpcode32 24595 .Rv32),
  (⟨.base_i_bit_32, .parse_opcode, 49⟩, .parseOpcode32 28691 .Rv32),
  (⟨.base_i_bit_32, .parse_opcode, 51⟩, .parseOpcode32 51 .Rv32),
  (⟨.base_i_bit_32, .parse_opcode, 52⟩, .parseOpcode32 51 .Rv32),
  (⟨.base_i_bit_32, .parse_opcode, 53⟩, .parseOpcode32 51 .Rv32),
  (⟨.base_i_bit_32, .parse_opcode, 54⟩, .parseOpcode32 1073741875 .Rv32),
  (⟨.base_i_bit_32, .parse_opcode, 55⟩, .parseOpcode32 67108915 .Rv32),
  (⟨.base_i_bit_32, .parse_opcode, 56⟩, .parseOpcode32 4147 .Rv32),
  (⟨.base_i_bit_32, .parse_opcode, 57⟩, .parseOpcode32 8243 .Rv32),
  (⟨.base_i_bit_32, .parse_opcode, 58⟩, .parseOpcode32 12339 .Rv32),
  (⟨.base_i_bit_32, .parse_opcode, 59⟩, .parseOpcode32 16435 .Rv32),
  (⟨.base_i_bit_32, .parse_opcode, 60⟩, .parseOpcode32 20531 .Rv32),
  (⟨.base_i_bit_32, .parse_opcode, 61⟩, .parseOpcode32 20531 .Rv32),
  (⟨.base_i_bit_32, .parse_opcode, 62⟩, .parseOpcode32 1073762355 .Rv32),
  (⟨.base_i_bit_32, .parse_opcode, 63⟩, .parseOpcode32 67129395 .Rv32)]

theorem differs2_0 : ((reaching2.drop 0).take 25).all differs = true := by kernel_rfl
theorem differs2_25 : ((reaching2.drop 25).take 25).all differs = true := by kernel_rfl
theorem differs2_50 : ((reaching2.drop 50).take 25).all differs = true := by kernel_rfl
theorem differs2_75 : ((reaching2.drop 75).take 25).all differs = true := by kernel_rfl
theorem differs2_100 : ((reaching2.drop 100).take 25).all differs = true := by kernel_rfl
theorem differs2_125 : ((reaching2.drop 125).take 25).all differs = true := by kernel_rfl
theorem differs2_150 : ((reaching2.drop 150).take 25).all differs = true := by kernel_rfl
theorem differs2_175 : ((reaching2.drop 175).take 25).all differs = true := by kernel_rfl
theorem differs2_200 : ((reaching2.drop 200).take 25).all differs = true := by kernel_rfl
theorem differs2_225 : ((reaching2.drop 225).take 25).all differs = true := by kernel_rfl
theorem differs2_end : (reaching2.drop 250).all differs = true := by kernel_rfl

theorem reaching2_differs : reaching2.all differs = true :=
  all_zero <| all_drop differs2_0 <|
  all_drop differs2_25 <|
  all_drop differs2_50 <|
  all_drop differs2_75 <|
  all_drop differs2_100 <|
  all_drop differs2_125 <|
  all_drop differs2_150 <|
  all_drop differs2_175 <|
  all_drop differs2_200 <|
  all_drop differs2_225 differs2_end

end Raki.Source
