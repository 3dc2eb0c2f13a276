import Verif.Source.Reach
import Verif.Source.Codes
/-!
# Calls that reach the branches, part 3
-/

namespace Raki.Source

/-- Branches in the order of the program, each with a call that reaches it. -/
def reaching3 : List (Branch × PublicCall) := [
  (⟨.base_i_bit_32, .parse_opcode, 64⟩, .parseOpcode32 24627 .Rv32),
  (⟨.base_i_bit_32, .parse_opcode, 65⟩, .parseOpcode32 28723 .Rv32),
  (⟨.base_i_bit_32, .parse_opcode, 67⟩, .parseOpcode32 115 .Rv32),
  (⟨.base_i_bit_32, .parse_opcode, 68⟩, .parseOpcode32 115 .Rv32),
  (⟨.base_i_bit_32, .parse_opcode, 69⟩, .parseOpcode32 115 .Rv32),
  (⟨.base_i_bit_32, .parse_opcode, 70⟩, .parseOpcode32 115 .Rv32),
  (⟨.base_i_bit_32, .parse_opcode, 71⟩, .parseOpcode32 1048691 .Rv32),
  (⟨.base_i_bit_32, .parse_opcode, 72⟩, .parseOpcode32 2097267 .Rv32),
  (⟨.base_i_bit_32, .parse_opcode, 75⟩, .parseOpcode32 27 .Rv32),
  (⟨.base_i_bit_32, .parse_opcode, 76⟩, .parseOpcode32 27 .Rv32),
  (⟨.base_i_bit_32, .parse_opcode, 77⟩, .parseOpcode32 4123 .Rv32),
  (⟨.base_i_bit_32, .parse_opcode, 78⟩, .parseOpcode32 20507 .Rv32),
  (⟨.base_i_bit_32, .parse_opcode, 79⟩, .parseOpcode32 20507 .Rv32),
  (⟨.base_i_bit_32, .parse_opcode, 80⟩, .parseOpcode32 1073762331 .Rv32),
  (⟨.base_i_bit_32, .parse_opcode, 81⟩, .parseOpcode32 33574939 .Rv32),
  (⟨.base_i_bit_32, .parse_opcode, 82⟩, .parseOpcode32 8219 .Rv32),
  (⟨.base_i_bit_32, .parse_opcode, 83⟩, .parseOpcode32 59 .Rv32),
  (⟨.base_i_bit_32, .parse_opcode, 84⟩, .parseOpcode32 59 .Rv32),
  (⟨.base_i_bit_32, .parse_opcode, 85⟩, .parseOpcode32 59 .Rv32),
  (⟨.base_i_bit_32, .parse_opcode, 86⟩, .parseOpcode32 1073741883 .Rv32),
  (⟨.base_i_bit_32, .parse_opcode, 88⟩, .parseOpcode32 4155 .Rv32),
  (⟨.base_i_bit_32, .parse_opcode, 89⟩, .parseOpcode32 20539 .Rv32),
  (⟨.base_i_bit_32, .parse_opcode, 90⟩, .parseOpcode32 20539 .Rv32),
  (⟨.base_i_bit_32, .parse_opcode, 91⟩, .parseOpcode32 1073762363 .Rv32),
  (⟨.base_i_bit_32, .parse_opcode, 93⟩, .parseOpcode32 8251 .Rv32),
  (⟨.base_i_bit_32, .parse_opcode, 94⟩, .parseOpcode32 7 .Rv32),
  (⟨.base_i_bit_32, .parse_rd, 0⟩, .tryFrom 19),
  (⟨.base_i_bit_32, .parse_rd, 1⟩, .parseRd32 0 (.BaseI .BEQ)),
  (⟨.base_i_bit_32, .parse_rs1, 0⟩, .tryFrom 19),
  (⟨.base_i_bit_32, .parse_rs1, 1⟩, .parseRs1_32 0 (.BaseI .LUI)),
  (⟨.base_i_bit_32, .parse_rs2, 0⟩, .parseRs2_32 0 (.BaseI .BEQ)),
  (⟨.base_i_bit_32, .parse_rs2, 1⟩, .tryFrom 19),
  (⟨.base_i_bit_32, .parse_imm, 0⟩, .parseImm32 0 (.BaseI .LUI) .Rv32),
  (⟨.base_i_bit_32, .parse_imm, 1⟩, .parseImm32 0 (.BaseI .JAL) .Rv32),
  (⟨.base_i_bit_32, .parse_imm, 2⟩, .parseImm32 0 (.BaseI .BEQ) .Rv32),
  (⟨.base_i_bit_32, .parse_imm, 3⟩, .tryFrom 19),
  (⟨.base_i_bit_32, .parse_imm, 4⟩, .parseImm32 0 (.BaseI .SB) .Rv32),
  (⟨.base_i_bit_32, .parse_imm, 5⟩, .parseImm32 0 (.BaseI .SLLI) .Rv32),
  (⟨.base_i_bit_32, .parse_imm, 6⟩, .parseImm32 0 (.BaseI .SLLI) .Rv32),
  (⟨.base_i_bit_32, .parse_imm, 7⟩, .parseImm32 0 (.BaseI .SLLI) .Rv64),
  (⟨.base_i_bit_32, .parse_imm, 8⟩, .parseImm32 0 (.BaseI .SLLIW) .Rv32),
  (⟨.base_i_bit_32, .parse_imm, 9⟩, .parseImm32 0 (.BaseI .ADD) .Rv32),
  (⟨.c_extension_bit_16, .quadrant0, 0⟩, .parseOpcode16 7040 .Rv32),
  (⟨.c_extension_bit_16, .quadrant0, 1⟩, .parseOpcode16 21664 .Rv32),
  (⟨.c_extension_bit_16, .quadrant0, 2⟩, .parseOpcode16 28704 .Rv32),
  (⟨.c_extension_bit_16, .quadrant0, 3⟩, .parseOpcode16 50912 .Rv32),
  (⟨.c_extension_bit_16, .quadrant0, 4⟩, .parseOpcode16 57952 .Rv32),
  (⟨.c_extension_bit_16, .quadrant0, 5⟩, .parseOpcode16 36288 .Rv32),
  (⟨.c_extension_bit_16, .quadrant1, 0⟩, .tryFrom 1),
  (⟨.c_extension_bit_16, .quadrant1, 1⟩, .tryFrom 1),
  (⟨.c_extension_bit_16, .quadrant1, 2⟩, .parseOpcode16 3385 .Rv32),
  (⟨.c_extension_bit_16, .quadrant1, 3⟩, .parseOpcode16 10425 .Rv32),
  (⟨.c_extension_bit_16, .quadrant1, 4⟩, .parseOpcode16 10425 .Rv32),
  (⟨.c_extension_bit_16, .quadrant1, 5⟩, .parseOpcode16 10425 .Rv64),
  (⟨.c_extension_bit_16, .quadrant1, 6⟩, .parseOpcode16 18009 .Rv32),
  (⟨.c_extension_bit_16, .quadrant1, 7⟩, .parseOpcode16 32633 .Rv32),
  (⟨.c_extension_bit_16, .quadrant1, 8⟩, .parseOpcode16 24953 .Rv32),
  (⟨.c_extension_bit_16, .quadrant1, 9⟩, .parseOpcode16 32633 .Rv32),
  (⟨.c_extension_bit_16, .quadrant1, 10⟩, .parseOpcode16 39673 .Rv32),
  (⟨.c_extension_bit_16, .quadrant1, 11⟩, .parseOpcode16 37497 .Rv32),
  (⟨.c_extension_bit_16, .quadrant1, 12⟩, .parseOpcode16 38585 .Rv32),
  (⟨.c_extension_bit_16, .quadrant1, 13⟩, .parseOpcode16 39673 .Rv32),
  (⟨.c_extension_bit_16, .quadrant1, 14⟩, .parseOpcode16 36409 .Rv32),
  (⟨.c_extension_bit_16, .quadrant1, 15⟩, .parseOpcode16 36409 .Rv32),
  (⟨.c_extension_bit_16, .quadrant1, 16⟩, .parseOpcode16 35865 .Rv32),
  (⟨.c_extension_bit_16, .quadrant1, 17⟩, .parseOpcode16 36409 .Rv32),
  (⟨.c_extension_bit_16, .quadrant1, 18⟩, .parseOpcode16 36313 .Rv32),
  (⟨.c_extension_bit_16, .quadrant1, 19⟩, .parseOpcode16 36345 .Rv32),
  (⟨.c_extension_bit_16, .quadrant1, 21⟩, .parseOpcode16 40729 .Rv32),
  (⟨.c_extension_bit_16, .quadrant1, 22⟩, .parseOpcode16 40729 .Rv32),
  (⟨.c_extension_bit_16, .quadrant1, 23⟩, .parseOpcode16 40121 .Rv32),
  (⟨.c_extension_bit_16, .quadrant1, 24⟩, .parseOpcode16 40185 .Rv32),
  (⟨.c_extension_bit_16, .quadrant1, 27⟩, .parseOpcode16 47257 .Rv32),
  (⟨.c_extension_bit_16, .quadrant1, 28⟩, .parseOpcode16 54297 .Rv32),
  (⟨.c_extension_bit_16, .quadrant1, 29⟩, .parseOpcode16 61881 .Rv32),
  (⟨.c_extension_bit_16, .quadrant2, 0⟩, .parseOpcode16 6770 .Rv32),
  (⟨.c_extension_bit_16, .quadrant2, 1⟩, .parseOpcode16 21394 .Rv32),
  (⟨.c_extension_bit_16, .quadrant2, 2⟩, .parseOpcode16 28978 .Rv32),
  (⟨.c_extension_bit_16, .quadrant2, 3⟩, .parseOpcode16 36018 .Rv32),
  (⟨.c_extension_bit_16, .quadrant2, 4⟩, .parseOpcode16 36018 .Rv32),
  (⟨.c_extension_bit_16, .quadrant2, 5⟩, .decode16 34946 .Rv64),
  (⟨.c_extension_bit_16, .quadrant2, 6⟩, .parseOpcode16 36018 .Rv32),
  (⟨.c_extension_bit_16, .quadrant2, 7⟩, .parseOpcode16 40882 .Rv32),
  (⟨.c_extension_bit_16, .quadrant2, 8⟩, .parseOpcode16 36978 .Rv32),
  (⟨.c_extension_bit_16, .quadrant2, 9⟩, .parseOpcode16 40882 .Rv32),
  (⟨.c_extension_bit_16, .quadrant2, 10⟩, .decode16 37378 .Rv64),
  (⟨.c_extension_bit_16, .quadrant2, 11⟩, .parseOpcode16 40882 .Rv32),
  (⟨.c_extension_bit_16, .quadrant2, 13⟩, .parseOpcode16 50642 .Rv32),
  (⟨.c_extension_bit_16, .quadrant2, 14⟩, .parseOpcode16 58226 .Rv32),
  (⟨.c_extension_bit_16, .quadrant2, 15⟩, .parseOpcode16 43602 .Rv32),
  (⟨.c_extension_bit_16, .parse_opcode, 0⟩, .parseOpcode16 0 .Rv32),
  (⟨.c_extension_bit_16, .parse_opcode, 1⟩, .tryFrom 1),
  (⟨.c_extension_bit_16, .parse_opcode, 2⟩, .parseOpcode16 50912 .Rv32),
  (⟨.c_extension_bit_16, .parse_opcode, 3⟩, .tryFrom 1),
  (⟨.c_extension_bit_16, .parse_opcode, 4⟩, .parseOpcode16 58226 .Rv32),
  (⟨.c_extension_bit_16, .parse_opcode, 5⟩, .parseOpcode16 54571 .Rv32),
  (⟨.c_extension_bit_16, .parse_rd, 0⟩, .parseRd16 0 (.C .ADDI4SPN)),
  (⟨.c_extension_bit_16, .parse_rd, 1⟩, .parseRd16 0 (.C .SRLI)),
  (⟨.c_extension_bit_16, .parse_rd, 2⟩, .parseRd16 0 (.C .ADDI)),
  (⟨.c_extension_bit_16, .parse_rd, 3⟩, .parseRd16 0 (.C .SLLI)),
  (⟨.c_extension_bit_16, .parse_rd, 4⟩, .tryFrom 1),
  (⟨.c_extension_bit_16, .parse_rs1, 0⟩, .parseRs1_16 0 (.C .LW)),
  (⟨.c_extension_bit_16, .parse_rs1, 1⟩, .parseRs1_16 0 (.C .ADDI)),
  (⟨.c_extension_bit_16, .parse_rs1, 2⟩, .parseRs1_16 0 (.C .SRLI)),
  (⟨.c_extension_bit_16, .parse_rs1, 3⟩, .parseRs1_16 0 (.C .SLLI)),
  (⟨.c_extension_bit_16, .parse_rs1, 4⟩, .tryFrom 1),
  (⟨.c_extension_bit_16, .parse_rs2, 0⟩, .parseRs2_16 0 (.C .SW)),
  (⟨.c_extension_bit_16, .parse_rs2, 1⟩, .parseRs2_16 0 (.C .SUB)),
  (⟨.c_extension_bit_16, .parse_rs2, 2⟩, .parseRs2_16 0 (.C .JR)),
  (⟨.c_extension_bit_16, .parse_rs2, 3⟩, .tryFrom 1),
  (⟨.c_extension_bit_16, .parse_imm, 0⟩, .parseImm16 0 (.C .ADDI4SPN) .Rv32),
  (⟨.c_extension_bit_16, .parse_imm, 1⟩, .parseImm16 0 (.C .LW) .Rv32),
  (⟨.c_extension_bit_16, .parse_imm, 2⟩, .parseImm16 0 (.C .LD) .Rv32),
  (⟨.c_extension_bit_16, .parse_imm, 3⟩, .parseImm16 0 (.C .LI) .Rv32),
  (⟨.c_extension_bit_16, .parse_imm, 4⟩, .tryFrom 1),
  (⟨.c_extension_bit_16, .parse_imm, 5⟩, .parseImm16 0 (.C .SRLI) .Rv32),
  (⟨.c_extension_bit_16, .parse_imm, 6⟩, .parseImm16 0 (.C .JAL) .Rv32),
  (⟨.c_extension_bit_16, .parse_imm, 7⟩, .parseImm16 0 (.C .BEQZ) .Rv32),
  (⟨.c_extension_bit_16, .parse_imm, 8⟩, .parseImm16 0 (.C .LUI) .Rv32),
  (⟨.c_extension_bit_16, .parse_imm, 9⟩, .parseImm16 0 (.C .ADDI16SP) .Rv32),
  (⟨.c_extension_bit_16, .parse_imm, 10⟩, .parseImm16 0 (.C .SLLI) .Rv32),
  (⟨.c_extension_bit_16, .parse_imm, 11⟩, .parseImm16 0 (.C .LWSP) .Rv32),
  (⟨.c_extension_bit_16, .parse_imm, 12⟩, .parseImm16 0 (.C .LDSP) .Rv32),
  (⟨.c_extension_bit_16, .parse_imm, 13⟩, .parseImm16 0 (.C .SWSP) .Rv32),
  (⟨.c_extension_bit_16, .parse_imm, 14⟩, .parseImm16 0 (.C .SDSP) .Rv32),
  (⟨.c_extension_bit_16, .parse_imm, 15⟩, .parseImm16 0 (.C .SUB) .Rv32),
  (⟨.m_extension_bit_32, .parse_opcode, 0⟩, .parseOpcode32 33554483 .Rv32),
  (⟨.m_extension_bit_32, .parse_opcode, 1⟩, .parseOpcode32 33554483 .Rv32),
  (⟨.m_extension_bit_32, .parse_opcode, 2⟩, .parseOpcode32 33558579 .Rv32),
  (⟨.m_extension_bit_32, .parse_opcode, 3⟩, .parseOpcode32 33562675 .Rv32),
  (⟨.m_extension_bit_32, .parse_opcode, 4⟩, .parseOpcode32 33566771 .Rv32),
  (⟨.m_extension_bit_32, .parse_opcode, 5⟩, .parseOpcode32 33570867 .Rv32),
  (⟨.m_extension_bit_32, .parse_opcode, 6⟩, .parseOpcode32 33574963 .Rv32),
  (⟨.m_extension_bit_32, .parse_opcode, 7⟩, .parseOpcode32 33579059 .Rv32),
  (⟨.m_extension_bit_32, .parse_opcode, 8⟩, .parseOpcode32 33583155 .Rv32),
  (⟨.m_extension_bit_32, .parse_opcode, 10⟩, .parseOpcode32 33554491 .Rv32),
  (⟨.m_extension_bit_32, .parse_opcode, 11⟩, .parseOpcode32 33554491 .Rv32),
  (⟨.m_extension_bit_32, .parse_opcode, 12⟩, .parseOpcode32 33570875 .Rv32),
  (⟨.m_extension_bit_32, .parse_opcode, 13⟩, .parseOpcode32 33574971 .Rv32),
  (⟨.m_extension_bit_32, .parse_opcode, 14⟩, .parseOpcode32 33579067 .Rv32),
  (⟨.m_extension_bit_32, .parse_opcode, 15⟩, .parseOpcode32 33583163 .Rv32),
  (⟨.m_extension_bit_32, .parse_opcode, 16⟩, .parseOpcode32 33558587 .Rv32),
  (⟨.m_extension_bit_32, .parse_rd, 0⟩, .parseRd32 0 (.M .MUL)),
  (⟨.m_extension_bit_32, .parse_rs1, 0⟩, .parseRs1_32 0 (.M .MUL)),
  (⟨.m_extension_bit_32, .parse_rs2, 0⟩, .parseRs2_32 0 (.M .MUL)),
  (⟨.priv_extension_bit_32, .parse_opcode, 0⟩, .parseOpcode32 270532723 .Rv32),
  (⟨.priv_extension_bit_32, .parse_opcode, 1⟩, .parseOpcode32 807403635 .Rv32),
  (⟨.priv_extension_bit_32, .parse_opcode, 2⟩, .parseOpcode32 273678451 .Rv32),
  (⟨.priv_extension_bit_32, .parse_opcode, 3⟩, .parseOpcode32 1073741939 .Rv32),
  (⟨.priv_extension_bit_32, .parse_opcode, 4⟩, .parseOpcode32 301990003 .Rv32),
  (⟨.priv_extension_bit_32, .parse_opcode, 5⟩, .parseOpcode32 1073741939 .Rv32),
  (⟨.priv_extension_bit_32, .parse_rs1, 0⟩, .parseRs1_32 0 (.Priv .SFENCE_VMA)),
  (⟨.priv_extension_bit_32, .parse_rs1, 1⟩, .parseRs1_32 0 (.Priv .MRET)),
  (⟨.priv_extension_bit_32, .parse_rs2, 0⟩, .parseRs2_32 0 (.Priv .SFENCE_VMA)),
  (⟨.priv_extension_bit_32, .parse_rs2, 1⟩, .parseRs2_32 0 (.Priv .MRET)),
  (⟨.zicboz_extension_bit_32, .parse_opcode, 0⟩, .parseOpcode32 8207 .Rv32),
  (⟨.zicboz_extension_bit_32, .parse_opcode, 1⟩, .parseOpcode32 8207 .Rv32),
  (⟨.zicboz_extension_bit_32, .parse_opcode, 2⟩, .parseOpcode32 4202511 .Rv32),
  (⟨.zicboz_extension_bit_32, .parse_opcode, 3⟩, .parseOpcode32 4202511 .Rv32),
  (⟨.zicboz_extension_bit_32, .parse_opcode, 4⟩, .parseOpcode32 4203151 .Rv32),
  (⟨.zicboz_extension_bit_32, .parse_opcode, 5⟩, .parseOpcode32 8207 .Rv32),
  (⟨.zicboz_extension_bit_32, .parse_rs1, 0⟩, .parseRs1_32 0 (.Zicboz .CBO_ZERO)),
  (⟨.zicfiss_extension_bit_32, .parse_opcode, 0⟩, .parseOpcode32 16499 .Rv32),
  (⟨.zicfiss_extension_bit_32, .parse_opcode, 1⟩, .parseOpcode32 16499 .Rv32),
  (⟨.zicfiss_extension_bit_32, .parse_opcode, 2⟩, .parseOpcode32 3457171571 .Rv32),
  (⟨.zicfiss_extension_bit_32, .parse_opcode, 3⟩, .parseOpcode32 3451928691 .Rv32),
  (⟨.zicfiss_extension_bit_32, .parse_opcode, 4⟩, .parseOpcode32 3451928691 .Rv32),
  (⟨.zicfiss_extension_bit_32, .parse_opcode, 5⟩, .parseOpcode32 3451961459 .Rv32),
  (⟨.zicfiss_extension_bit_32, .parse_opcode, 6⟩, .parseOpcode32 16499 .Rv32),
  (⟨.zicfiss_extension_bit_32, .parse_opcode, 8⟩, .parseOpcode32 1207959599 .Rv32),
  (⟨.zicfiss_extension_bit_32, .parse_opcode, 9⟩, .parseOpcode32 1207967791 .Rv32),
  (⟨.zicfiss_extension_bit_32, .parse_opcode, 10⟩, .parseOpcode32 1207971887 .Rv32),
  (⟨.zicfiss_extension_bit_32, .parse_opcode, 11⟩, .parseOpcode32 1207959599 .Rv32),
  (⟨.zicfiss_extension_bit_32, .parse_rd, 0⟩, .parseRd32 0 (.Zicfiss .SSPUSH)),
  (⟨.zicfiss_extension_bit_32, .parse_rd, 1⟩, .parseRd32 0 (.Zicfiss .SSRDP)),
  (⟨.zicfiss_extension_bit_32, .parse_rd, 2⟩, .parseRd32 0 (.Zicfiss .C_SSPUSH)),
  (⟨.zicfiss_extension_bit_32, .parse_rs1, 0⟩, .parseRs1_32 0 (.Zicfiss .SSPUSH)),
  (⟨.zicfiss_extension_bit_32, .parse_rs1, 1⟩, .parseRs1_32 0 (.Zicfiss .SSPOPCHK)),
  (⟨.zicfiss_extension_bit_32, .parse_rs1, 2⟩, .parseRs1_32 0 (.Zicfiss .SSRDP)),
  (⟨.zicfiss_extension_bit_32, .parse_rs1, 3⟩, .parseRs1_32 0 (.Zicfiss .C_SSPUSH)),
  (⟨.zicfiss_extension_bit_32, .parse_rs2, 0⟩, .parseRs2_32 0 (.Zicfiss .SSPUSH)),
  (⟨.zicfiss_extension_bit_32, .parse_rs2, 1⟩, .parseRs2_32 0 (.Zicfiss .SSPOPCHK)),
  (⟨.zicfiss_extension_bit_32, .parse_rs2, 2⟩, .parseRs2_32 0 (.Zicfiss .C_SSPUSH)),
  (⟨.zicfiss_extension_bit_32, .parse_imm, 0⟩, .parseImm32 0 (.Zicfiss .SSPUSH) .Rv32),
  (⟨.zicfiss_extension_bit_32, .parse_imm, 1⟩, .parseImm32 0 (.Zicfiss .C_SSPUSH) .Rv32),
  (⟨.zicfiss_extension_bit_16, .parse_opcode, 0⟩, .parseOpcode16 24705 .Rv64),
  (⟨.zicfiss_extension_bit_16, .parse_opcode, 1⟩, .parseOpcode16 25217 .Rv64),
  (⟨.zicfiss_extension_bit_16, .parse_rd, 0⟩, .parseRd16 0 (.Zicfiss .C_SSPUSH)),
  (⟨.zicfiss_extension_bit_16, .parse_rd, 1⟩, .parseRd16 0 (.Zicfiss .C_SSPOPCHK)),
  (⟨.zicfiss_extension_bit_16, .parse_rd, 2⟩, .parseRd16 0 (.Zicfiss .SSPUSH)),
  (⟨.zicntr_extension_bit_32, .parse_opcode, 0⟩, .parseOpcode32 3221233779 .Rv32),
  (⟨.zicntr_extension_bit_32, .parse_opcode, 1⟩, .parseOpcode32 3221233779 .Rv32),
  (⟨.zicntr_extension_bit_32, .parse_opcode, 2⟩, .parseOpcode32 3221233779 .Rv32),
  (⟨.zicntr_extension_bit_32, .parse_opcode, 3⟩, .parseOpcode32 3222282355 .Rv32),
  (⟨.zicntr_extension_bit_32, .parse_opcode, 4⟩, .parseOpcode32 3223330931 .Rv32),
  (⟨.zicntr_extension_bit_32, .parse_opcode, 5⟩, .parseOpcode32 3355451507 .Rv32),
  (⟨.zicntr_extension_bit_32, .parse_opcode, 6⟩, .parseOpcode32 3356500211 .Rv32),
  (⟨.zicntr_extension_bit_32, .parse_opcode, 7⟩, .parseOpcode32 3357548787 .Rv32),
  (⟨.zicntr_extension_bit_32, .parse_rd, 0⟩, .parseRd32 0 (.Zicntr .RDCYCLE_H)),
  (⟨.zicntr_extension_bit_32, .parse_rs1, 0⟩, .parseRs1_32 0 (.Zicntr .RDCYCLE_H)),
  (⟨.zicntr_extension_bit_32, .parse_rs2, 0⟩, .parseRs2_32 0 (.Zicntr .RDCYCLE_H)),
  (⟨.zicntr_extension_bit_32, .parse_imm, 0⟩, .parseImm32 0 (.Zicntr .RDCYCLE_H) .Rv32),
  (⟨.zicsr_extension_bit_32, .parse_opcode, 0⟩, .parseOpcode32 4211 .Rv32),
  (⟨.zicsr_extension_bit_32, .parse_opcode, 1⟩, .parseOpcode32 4211 .Rv32),
  (⟨.zicsr_extension_bit_32, .parse_opcode, 2⟩, .parseOpcode32 8307 .Rv32),
  (⟨.zicsr_extension_bit_32, .parse_opcode, 3⟩, .parseOpcode32 12403 .Rv32),
  (⟨.zicsr_extension_bit_32, .parse_opcode, 4⟩, .parseOpcode32 20595 .Rv32),
  (⟨.zicsr_extension_bit_32, .parse_opcode, 5⟩, .parseOpcode32 24691 .Rv32),
  (⟨.zicsr_extension_bit_32, .parse_opcode, 6⟩, .parseOpcode32 28787 .Rv32),
  (⟨.zicsr_extension_bit_32, .parse_rd, 0⟩, .parseRd32 0 (.Zicsr .CSRRW)),
  (⟨.zicsr_extension_bit_32, .parse_rs1, 0⟩, .parseRs1_32 0 (.Zicsr .CSRRW)),
  (⟨.zicsr_extension_bit_32, .parse_rs1, 1⟩, .parseRs1_32 0 (.Zicsr .CSRRWI)),
  (⟨.zicsr_extension_bit_32, .parse_rs2, 0⟩, .parseRs2_32 0 (.Zicsr .CSRRW)),
  (⟨.zicsr_extension_bit_32, .parse_imm, 0⟩, .parseImm32 0 (.Zicsr .CSRRWI) .Rv32),
  (⟨.zicsr_extension_bit_32, .parse_imm, 1⟩, .parseImm32 0 (.Zicsr .CSRRW) .Rv32),
  (⟨.zifencei_extension_bit_32, .parse_opcode, 0⟩, .parseOpcode32 15 .Rv32),
  (⟨.zifencei_extension_bit_32, .parse_rd, 0⟩, .parseRd32 0 (.Zifencei .FENCE)),
  (⟨.zifencei_extension_bit_32, .parse_rs1, 0⟩, .parseRs1_32 0 (.Zifencei .FENCE)),
  (⟨.zifencei_extension_bit_32, .parse_rs2, 0⟩, .parseRs2_32 0 (.Zifencei .FENCE)),
  (⟨.zifencei_extension_bit_32, .parse_imm, 0⟩, .parseImm32 0 (.Zifencei .FENCE) .Rv32),
  (⟨.u16, .to_signed_nbit, 0⟩, .parseImm16 65535 (.C .NOP) .Rv32),
  (⟨.u16, .to_signed_nbit, 1⟩, .tryFrom 1),
  (⟨.u32, .to_signed_nbit, 0⟩, .parseImm32 4294967295 (.BaseI .JAL) .Rv32),
  (⟨.u32, .to_signed_nbit, 1⟩, .tryFrom 19)]

theorem differs3_0 : ((reaching3.drop 0).take 25).all differs = true := by kernel_rfl
theorem differs3_25 : ((reaching3.drop 25).take 25).all differs = true := by kernel_rfl
theorem differs3_50 : ((reaching3.drop 50).take 25).all differs = true := by kernel_rfl
theorem differs3_75 : ((reaching3.drop 75).take 25).all differs = true := by kernel_rfl
theorem differs3_100 : ((reaching3.drop 100).take 25).all differs = true := by kernel_rfl
theorem differs3_125 : ((reaching3.drop 125).take 25).all differs = true := by kernel_rfl
theorem differs3_150 : ((reaching3.drop 150).take 25).all differs = true := by kernel_rfl
theorem differs3_175 : ((reaching3.drop 175).take 25).all differs = true := by kernel_rfl
theorem differs3_200 : ((reaching3.drop 200).take 25).all differs = true := by kernel_rfl
theorem differs3_end : (reaching3.drop 225).all differs = true := by kernel_rfl

theorem reaching3_differs : reaching3.all differs = true :=
  all_zero <| all_drop differs3_0 <|
  all_drop differs3_25 <|
  all_drop differs3_50 <|
  all_drop differs3_75 <|
  all_drop differs3_100 <|
  all_drop differs3_125 <|
  all_drop differs3_150 <|
  all_drop differs3_175 <|
  all_drop differs3_200 differs3_end

end Raki.Source
