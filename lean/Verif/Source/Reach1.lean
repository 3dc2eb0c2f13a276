import Verif.Source.Reach
import Verif.Source.Codes
/-!
# Calls that reach the branches, part 1
-/

namespace Raki.Source

/-- Branches in the order of the program, each with a call that reaches it. -/
def reaching1 : List (Branch × PublicCall) := [
  (⟨.Instruction, .try_from, 0⟩, .tryFrom 19),
  (⟨.Instruction, .try_from, 1⟩, .tryFrom 1),
  (⟨.decode, .only_rv64, 0⟩, .parseOpcode32 12291 .Rv32),
  (⟨.decode, .only_rv64, 1⟩, .parseOpcode32 12291 .Rv64),
  (⟨.Instruction, .fmt, 0⟩, .showInstruction ⟨.BaseI .ADD, some 1, some 2, some 3, some 4, .RFormat, false⟩),
  (⟨.Instruction, .fmt, 1⟩, .showInstruction ⟨.BaseI .ADD, some 1, some 2, some 3, some 4, .AFormat, false⟩),
  (⟨.Instruction, .fmt, 2⟩, .showInstruction ⟨.A .LR_W, some 1, some 2, some 3, some 4, .AFormat, false⟩),
  (⟨.Instruction, .fmt, 3⟩, .showInstruction ⟨.BaseI .ADD, some 1, some 2, some 3, some 4, .AFormat, false⟩),
  (⟨.Instruction, .fmt, 4⟩, .showInstruction ⟨.BaseI .ADD, some 1, some 2, some 3, some 4, .RShamtFormat, false⟩),
  (⟨.Instruction, .fmt, 5⟩, .showInstruction ⟨.BaseI .ADD, some 1, some 2, some 3, some 4, .IFormat, false⟩),
  (⟨.Instruction, .fmt, 6⟩, .showInstruction ⟨.BaseI .ADD, some 1, some 2, some 3, some 4, .SFormat, false⟩),
  (⟨.Instruction, .fmt, 7⟩, .showInstruction ⟨.BaseI .ADD, some 1, some 2, some 3, some 4, .CiwFormat, false⟩),
  (⟨.Instruction, .fmt, 8⟩, .showInstruction ⟨.BaseI .ADD, some 1, some 2, some 3, some 4, .CssFormat, false⟩),
  (⟨.Instruction, .fmt, 9⟩, .showInstruction ⟨.BaseI .ADD, some 1, some 2, some 3, some 4, .UFormat, false⟩),
  (⟨.Instruction, .fmt, 10⟩, .showInstruction ⟨.BaseI .ADD, some 1, some 2, some 3, some 4, .CjFormat, false⟩),
  (⟨.Instruction, .fmt, 11⟩, .showInstruction ⟨.BaseI .ADD, some 1, some 2, some 3, some 4, .CiFormat, false⟩),
  (⟨.Instruction, .fmt, 12⟩, .showInstruction ⟨.BaseI .ADD, some 1, some 2, some 3, some 4, .CrFormat, false⟩),
  (⟨.Instruction, .fmt, 13⟩, .showInstruction ⟨.C .JR, some 1, some 2, some 3, some 4, .CrFormat, false⟩),
  (⟨.Instruction, .fmt, 14⟩, .showInstruction ⟨.C .JALR, some 1, some 2, some 3, some (-5), .CrFormat, false⟩),
  (⟨.Instruction, .fmt, 15⟩, .showInstruction ⟨.C .MV, some 1, some 2, some 3, some (-5), .CrFormat, false⟩),
  (⟨.Instruction, .fmt, 16⟩, .showInstruction ⟨.C .ADD, some 1, some 2, some 3, some 4, .CrFormat, false⟩),
  (⟨.Instruction, .fmt, 17⟩, .showInstruction ⟨.BaseI .ADD, some 1, some 2, some 3, some 4, .CrFormat, false⟩),
  (⟨.Instruction, .fmt, 18⟩, .showInstruction ⟨.BaseI .ADD, some 1, some 2, some 3, some 4, .CaFormat, false⟩),
  (⟨.Instruction, .fmt, 19⟩, .showInstruction ⟨.BaseI .ADD, some 1, some 2, some 3, some 4, .CbFormat, false⟩),
  (⟨.Instruction, .fmt, 20⟩, .showInstruction ⟨.BaseI .ADD, some 1, some 2, some 3, some 4, .CsrFormat, false⟩),
  (⟨.Instruction, .fmt, 21⟩, .showInstruction ⟨.BaseI .ADD, some 1, some 2, some 3, some 4, .CsrUiFormat, false⟩),
  (⟨.Instruction, .fmt, 22⟩, .showInstruction ⟨.BaseI .ADD, some 1, some 2, some 3, some 4, .OnlyRd, false⟩),
  (⟨.Instruction, .fmt, 23⟩, .showInstruction ⟨.BaseI .ADD, some 1, some 2, some 3, some 4, .OnlyRs1, false⟩),
  (⟨.Instruction, .fmt, 24⟩, .showInstruction ⟨.BaseI .ADD, some 1, some 2, some 3, some 4, .OnlyRs2, false⟩),
  (⟨.Instruction, .fmt, 25⟩, .showInstruction ⟨.BaseI .ADD, some 1, some 2, some 3, some 4, .NoOperand, false⟩),
  (⟨.Instruction, .fmt, 26⟩, .showInstruction ⟨.Priv .SRET, some 1, some 2, some 3, some 4, .NoOperand, false⟩),
  (⟨.Instruction, .fmt, 27⟩, .showInstruction ⟨.BaseI .ADD, some 1, some 2, some 3, some 4, .NoOperand, false⟩),
  (⟨.instruction, .reg2str, 0⟩, .showInstruction ⟨.BaseI .ADD, some 0, some 0, some 0, none, .RFormat, false⟩),
  (⟨.instruction, .reg2str, 1⟩, .showInstruction ⟨.BaseI .ADD, some 1, some 2, some 3, some 4, .RFormat, false⟩),
  (⟨.instruction, .reg2str, 2⟩, .showInstruction ⟨.BaseI .ADD, some 1, some 2, some 3, some 4, .RFormat, false⟩),
  (⟨.instruction, .reg2str, 3⟩, .showInstruction ⟨.BaseI .ADD, some 1, some 2, some 3, some 4, .RFormat, false⟩),
  (⟨.instruction, .reg2str, 4⟩, .showInstruction ⟨.BaseI .ADD, some 4, some 4, some 4, none, .RFormat, false⟩),
  (⟨.instruction, .reg2str, 5⟩, .showInstruction ⟨.BaseI .ADD, some 5, some 5, some 5, none, .RFormat, false⟩),
  (⟨.instruction, .reg2str, 6⟩, .showInstruction ⟨.BaseI .ADD, some 6, some 6, some 6, none, .RFormat, false⟩),
  (⟨.instruction, .reg2str, 7⟩, .showInstruction ⟨.BaseI .ADD, some 7, some 7, some 7, none, .RFormat, false⟩),
  (⟨.instruction, .reg2str, 8⟩, .showInstruction ⟨.BaseI .ADD, some 8, some 8, some 8, none, .RFormat, false⟩),
  (⟨.instruction, .reg2str, 9⟩, .showInstruction ⟨.BaseI .ADD, some 9, some 9, some 9, none, .RFormat, false⟩),
  (⟨.instruction, .reg2str, 10⟩, .showInstruction ⟨.BaseI .ADD, some 10, some 10, some 10, none, .RFormat, false⟩),
  (⟨.instruction, .reg2str, 11⟩, .showInstruction ⟨.BaseI .ADD, some 11, some 11, some 11, none, .RFormat, false⟩),
  (⟨.instruction, .reg2str, 12⟩, .showInstruction ⟨.BaseI .ADD, some 12, some 12, some 12, none, .RFormat, false⟩),
  (⟨.instruction, .reg2str, 13⟩, .showInstruction ⟨.BaseI .ADD, some 13, some 13, some 13, none, .RFormat, false⟩),
  (⟨.instruction, .reg2str, 14⟩, .showInstruction ⟨.BaseI .ADD, some 14, some 14, some 14, none, .RFormat, false⟩),
  (⟨.instruction, .reg2str, 15⟩, .showInstruction ⟨.BaseI .ADD, some 15, some 15, some 15, none, .RFormat, false⟩),
  (⟨.instruction, .reg2str, 16⟩, .showInstruction ⟨.BaseI .ADD, some 16, some 16, some 16, none, .RFormat, false⟩),
  (⟨.instruction, .reg2str, 17⟩, .showInstruction ⟨.BaseI .ADD, some 17, some 17, some 17, none, .RFormat, false⟩),
  (⟨.instruction, .reg2str, 18⟩, .showInstruction ⟨.BaseI .ADD, some 18, some 18, some 18, none, .RFormat, false⟩),
  (⟨.instruction, .reg2str, 19⟩, .showInstruction ⟨.BaseI .ADD, some 19, some 19, some 19, none, .RFormat, false⟩),
  (⟨.instruction, .reg2str, 20⟩, .showInstruction ⟨.BaseI .ADD, some 20, some 20, some 20, none, .RFormat, false⟩),
  (⟨.instruction, .reg2str, 21⟩, .showInstruction ⟨.BaseI .ADD, some 21, some 21, some 21, none, .RFormat, false⟩),
  (⟨.instruction, .reg2str, 22⟩, .showInstruction ⟨.BaseI .ADD, some 22, some 22, some 22, none, .RFormat, false⟩),
  (⟨.instruction, .reg2str, 23⟩, .showInstruction ⟨.BaseI .ADD, some 23, some 23, some 23, none, .RFormat, false⟩),
  (⟨.instruction, .reg2str, 24⟩, .showInstruction ⟨.BaseI .ADD, some 24, some 24, some 24, none, .RFormat, false⟩),
  (⟨.instruction, .reg2str, 25⟩, .showInstruction ⟨.BaseI .ADD, some 25, some 25, some 25, none, .RFormat, false⟩),
  (⟨.instruction, .reg2str, 26⟩, .showInstruction ⟨.BaseI .ADD, some 26, some 26, some 26, none, .RFormat, false⟩),
  (⟨.instruction, .reg2str, 27⟩, .showInstruction ⟨.BaseI .ADD, some 27, some 27, some 27, none, .RFormat, false⟩),
  (⟨.instruction, .reg2str, 28⟩, .showInstruction ⟨.BaseI .ADD, some 28, some 28, some 28, none, .RFormat, false⟩),
  (⟨.instruction, .reg2str, 29⟩, .showInstruction ⟨.BaseI .ADD, some 29, some 29, some 29, none, .RFormat, false⟩),
  (⟨.instruction, .reg2str, 30⟩, .showInstruction ⟨.BaseI .ADD, some 30, some 30, some 30, none, .RFormat, false⟩),
  (⟨.instruction, .reg2str, 31⟩, .showInstruction ⟨.BaseI .ADD, some 31, some 31, some 31, none, .RFormat, false⟩),
  (⟨.instruction, .reg2str, 32⟩, .showInstruction ⟨.BaseI .ADD, some 32, some 32, some 32, none, .RFormat, false⟩),
  (⟨.OpcodeKind, .fmt, 0⟩, .showOpcode (.BaseI .LUI)),
  (⟨.OpcodeKind, .fmt, 1⟩, .showOpcode (.M .MUL)),
  (⟨.OpcodeKind, .fmt, 2⟩, .showOpcode (.A .LR_W)),
  (⟨.OpcodeKind, .fmt, 3⟩, .showOpcode (.C .ADDI4SPN)),
  (⟨.OpcodeKind, .fmt, 4⟩, .showOpcode (.Zifencei .FENCE)),
  (⟨.OpcodeKind, .fmt, 5⟩, .showOpcode (.Zicboz .CBO_ZERO)),
  (⟨.OpcodeKind, .fmt, 6⟩, .showOpcode (.Zicsr .CSRRW)),
  (⟨.OpcodeKind, .fmt, 7⟩, .showOpcode (.Zicfiss .SSPUSH)),
  (⟨.OpcodeKind, .fmt, 8⟩, .showOpcode (.Zicntr .RDCYCLE_H)),
  (⟨.OpcodeKind, .fmt, 9⟩, .showOpcode (.Priv .MRET)),
  (⟨.OpcodeKind, .get_format, 0⟩, .tryFrom 19),
  (⟨.OpcodeKind, .get_format, 1⟩, .getFormat (.M .MUL)),
  (⟨.OpcodeKind, .get_format, 2⟩, .getFormat (.A .LR_W)),
  (⟨.OpcodeKind, .get_format, 3⟩, .tryFrom 1),
  (⟨.OpcodeKind, .get_format, 4⟩, .getFormat (.Zifencei .FENCE)),
  (⟨.OpcodeKind, .get_format, 5⟩, .getFormat (.Zicboz .CBO_ZERO)),
  (⟨.OpcodeKind, .get_format, 6⟩, .getFormat (.Zicsr .CSRRW)),
  (⟨.OpcodeKind, .get_format, 7⟩, .getFormat (.Zicfiss .SSPUSH)),
  (⟨.OpcodeKind, .get_format, 8⟩, .getFormat (.Zicntr .RDCYCLE_H)),
  (⟨.OpcodeKind, .get_format, 9⟩, .getFormat (.Priv .MRET)),
  (⟨.AOpcode, .fmt, 0⟩, .showOpcode (.A .LR_W)),
  (⟨.AOpcode, .fmt, 1⟩, .showOpcode (.A .SC_W)),
  (⟨.AOpcode, .fmt, 2⟩, .showOpcode (.A .AMOSWAP_W)),
  (⟨.AOpcode, .fmt, 3⟩, .showOpcode (.A .AMOADD_W)),
  (⟨.AOpcode, .fmt, 4⟩, .showOpcode (.A .AMOXOR_W)),
  (⟨.AOpcode, .fmt, 5⟩, .showOpcode (.A .AMOAND_W)),
  (⟨.AOpcode, .fmt, 6⟩, .showOpcode (.A .AMOOR_W)),
  (⟨.AOpcode, .fmt, 7⟩, .showOpcode (.A .AMOMIN_W)),
  (⟨.AOpcode, .fmt, 8⟩, .showOpcode (.A .AMOMAX_W)),
  (⟨.AOpcode, .fmt, 9⟩, .showOpcode (.A .AMOMINU_W)),
  (⟨.AOpcode, .fmt, 10⟩, .showOpcode (.A .AMOMAXU_W)),
  (⟨.AOpcode, .fmt, 11⟩, .showOpcode (.A .LR_D)),
  (⟨.AOpcode, .fmt, 12⟩, .showOpcode (.A .SC_D)),
  (⟨.AOpcode, .fmt, 13⟩, .showOpcode (.A .AMOSWAP_D)),
  (⟨.AOpcode, .fmt, 14⟩, .showOpcode (.A .AMOADD_D)),
  (⟨.AOpcode, .fmt, 15⟩, .showOpcode (.A .AMOXOR_D)),
  (⟨.AOpcode, .fmt, 16⟩, .showOpcode (.A .AMOAND_D)),
  (⟨.AOpcode, .fmt, 17⟩, .showOpcode (.A .AMOOR_D)),
  (⟨.AOpcode, .fmt, 18⟩, .showOpcode (.A .AMOMIN_D)),
  (⟨.AOpcode, .fmt, 19⟩, .showOpcode (.A .AMOMAX_D)),
  (⟨.AOpcode, .fmt, 20⟩, .showOpcode (.A .AMOMINU_D)),
  (⟨.AOpcode, .fmt, 21⟩, .showOpcode (.A .AMOMAXU_D)),
  (⟨.AOpcode, .get_format, 0⟩, .getFormat (.A .LR_W)),
  (⟨.AOpcode, .get_format, 1⟩, .getFormat (.A .SC_W)),
  (⟨.BaseIOpcode, .fmt, 0⟩, .showOpcode (.BaseI .LUI)),
  (⟨.BaseIOpcode, .fmt, 1⟩, .showOpcode (.BaseI .AUIPC)),
  (⟨.BaseIOpcode, .fmt, 2⟩, .showOpcode (.BaseI .JAL)),
  (⟨.BaseIOpcode, .fmt, 3⟩, .showOpcode (.BaseI .JALR)),
  (⟨.BaseIOpcode, .fmt, 4⟩, .showOpcode (.BaseI .BEQ)),
  (⟨.BaseIOpcode, .fmt, 5⟩, .showOpcode (.BaseI .BNE)),
  (⟨.BaseIOpcode, .fmt, 6⟩, .showOpcode (.BaseI .BLT)),
  (⟨.BaseIOpcode, .fmt, 7⟩, .showOpcode (.BaseI .BGE)),
  (⟨.BaseIOpcode, .fmt, 8⟩, .showOpcode (.BaseI .BLTU)),
  (⟨.BaseIOpcode, .fmt, 9⟩, .showOpcode (.BaseI .BGEU)),
  (⟨.BaseIOpcode, .fmt, 10⟩, .showOpcode (.BaseI .LB)),
  (⟨.BaseIOpcode, .fmt, 11⟩, .showOpcode (.BaseI .LH)),
  (⟨.BaseIOpcode, .fmt, 12⟩, .showOpcode (.BaseI .LW)),
  (⟨.BaseIOpcode, .fmt, 13⟩, .showOpcode (.BaseI .LBU)),
  (⟨.BaseIOpcode, .fmt, 14⟩, .showOpcode (.BaseI .LHU)),
  (⟨.BaseIOpcode, .fmt, 15⟩, .showOpcode (.BaseI .SB)),
  (⟨.BaseIOpcode, .fmt, 16⟩, .showOpcode (.BaseI .SH)),
  (⟨.BaseIOpcode, .fmt, 17⟩, .showOpcode (.BaseI .SW)),
  (⟨.BaseIOpcode, .fmt, 18⟩, .showOpcode (.BaseI .ADDI)),
  (⟨.BaseIOpcode, .fmt, 19⟩, .showOpcode (.BaseI .SLTI)),
  (⟨.BaseIOpcode, .fmt, 20⟩, .showOpcode (.BaseI .SLTIU)),
  (⟨.BaseIOpcode, .fmt, 21⟩, .showOpcode (.BaseI .XORI)),
  (⟨.BaseIOpcode, .fmt, 22⟩, .showOpcode (.BaseI .ORI)),
  (⟨.BaseIOpcode, .fmt, 23⟩, .showOpcode (.BaseI .ANDI)),
  (⟨.BaseIOpcode, .fmt, 24⟩, .showOpcode (.BaseI .SLLI)),
  (⟨.BaseIOpcode, .fmt, 25⟩, .showOpcode (.BaseI .SRLI)),
  (⟨.BaseIOpcode, .fmt, 26⟩, .showOpcode (.BaseI .SRAI)),
  (⟨.BaseIOpcode, .fmt, 27⟩, .showOpcode (.BaseI .ADD)),
  (⟨.BaseIOpcode, .fmt, 28⟩, .showOpcode (.BaseI .SUB)),
  (⟨.BaseIOpcode, .fmt, 29⟩, .showOpcode (.BaseI .SLL)),
  (⟨.BaseIOpcode, .fmt, 30⟩, .showOpcode (.BaseI .SLT)),
  (⟨.BaseIOpcode, .fmt, 31⟩, .showOpcode (.BaseI .SLTU)),
  (⟨.BaseIOpcode, .fmt, 32⟩, .showOpcode (.BaseI .XOR)),
  (⟨.BaseIOpcode, .fmt, 33⟩, .showOpcode (.BaseI .SRL)),
  (⟨.BaseIOpcode, .fmt, 34⟩, .showOpcode (.BaseI .SRA)),
  (⟨.BaseIOpcode, .fmt, 35⟩, .showOpcode (.BaseI .OR)),
  (⟨.BaseIOpcode, .fmt, 36⟩, .showOpcode (.BaseI .AND)),
  (⟨.BaseIOpcode, .fmt, 37⟩, .showOpcode (.BaseI .ECALL)),
  (⟨.BaseIOpcode, .fmt, 38⟩, .showOpcode (.BaseI .EBREAK)),
  (⟨.BaseIOpcode, .fmt, 39⟩, .showOpcode (.BaseI .LWU)),
  (⟨.BaseIOpcode, .fmt, 40⟩, .showOpcode (.BaseI .LD)),
  (⟨.BaseIOpcode, .fmt, 41⟩, .showOpcode (.BaseI .SD)),
  (⟨.BaseIOpcode, .fmt, 42⟩, .showOpcode (.BaseI .ADDIW)),
  (⟨.BaseIOpcode, .fmt, 43⟩, .showOpcode (.BaseI .SLLIW)),
  (⟨.BaseIOpcode, .fmt, 44⟩, .showOpcode (.BaseI .SRLIW)),
  (⟨.BaseIOpcode, .fmt, 45⟩, .showOpcode (.BaseI .SRAIW)),
  (⟨.BaseIOpcode, .fmt, 46⟩, .showOpcode (.BaseI .ADDW)),
  (⟨.BaseIOpcode, .fmt, 47⟩, .showOpcode (.BaseI .SUBW)),
  (⟨.BaseIOpcode, .fmt, 48⟩, .showOpcode (.BaseI .SLLW)),
  (⟨.BaseIOpcode, .fmt, 49⟩, .showOpcode (.BaseI .SRLW)),
  (⟨.BaseIOpcode, .fmt, 50⟩, .showOpcode (.BaseI .SRAW)),
  (⟨.BaseIOpcode, .get_format, 0⟩, .getFormat (.BaseI .BEQ)),
  (⟨.BaseIOpcode, .get_format, 1⟩, .tryFrom 19),
  (⟨.BaseIOpcode, .get_format, 2⟩, .getFormat (.BaseI .SLLI)),
  (⟨.BaseIOpcode, .get_format, 3⟩, .getFormat (.BaseI .ADD)),
  (⟨.BaseIOpcode, .get_format, 4⟩, .getFormat (.BaseI .SB)),
  (⟨.BaseIOpcode, .get_format, 5⟩, .getFormat (.BaseI .JAL)),
  (⟨.BaseIOpcode, .get_format, 6⟩, .getFormat (.BaseI .LUI)),
  (⟨.BaseIOpcode, .get_format, 7⟩, .getFormat (.BaseI .ECALL)),
  (⟨.COpcode, .fmt, 0⟩, .showOpcode (.C .ADDI4SPN)),
  (⟨.COpcode, .fmt, 1⟩, .showOpcode (.C .LW)),
  (⟨.COpcode, .fmt, 2⟩, .showOpcode (.C .SW)),
  (⟨.COpcode, .fmt, 3⟩, .showOpcode (.C .NOP)),
  (⟨.COpcode, .fmt, 4⟩, .showOpcode (.C .ADDI)),
  (⟨.COpcode, .fmt, 5⟩, .showOpcode (.C .JAL)),
  (⟨.COpcode, .fmt, 6⟩, .showOpcode (.C .LI)),
  (⟨.COpcode, .fmt, 7⟩, .showOpcode (.C .ADDI16SP)),
  (⟨.COpcode, .fmt, 8⟩, .showOpcode (.C .LUI)),
  (⟨.COpcode, .fmt, 9⟩, .showOpcode (.C .SRLI)),
  (⟨.COpcode, .fmt, 10⟩, .showOpcode (.C .SRAI)),
  (⟨.COpcode, .fmt, 11⟩, .showOpcode (.C .ANDI)),
  (⟨.COpcode, .fmt, 12⟩, .showOpcode (.C .SUB)),
  (⟨.COpcode, .fmt, 13⟩, .showOpcode (.C .XOR)),
  (⟨.COpcode, .fmt, 14⟩, .showOpcode (.C .OR)),
  (⟨.COpcode, .fmt, 15⟩, .showOpcode (.C .AND)),
  (⟨.COpcode, .fmt, 16⟩, .showOpcode (.C .J)),
  (⟨.COpcode, .fmt, 17⟩, .showOpcode (.C .BEQZ)),
  (⟨.COpcode, .fmt, 18⟩, .showOpcode (.C .BNEZ)),
  (⟨.COpcode, .fmt, 19⟩, .showOpcode (.C .SLLI)),
  (⟨.COpcode, .fmt, 20⟩, .showOpcode (.C .LWSP)),
  (⟨.COpcode, .fmt, 21⟩, .showOpcode (.C .JR)),
  (⟨.COpcode, .fmt, 22⟩, .showOpcode (.C .MV)),
  (⟨.COpcode, .fmt, 23⟩, .showOpcode (.C .EBREAK)),
  (⟨.COpcode, .fmt, 24⟩, .showOpcode (.C .JALR)),
  (⟨.COpcode, .fmt, 25⟩, .showOpcode (.C .ADD)),
  (⟨.COpcode, .fmt, 26⟩, .showOpcode (.C .SWSP)),
  (⟨.COpcode, .fmt, 27⟩, .showOpcode (.C .LD)),
  (⟨.COpcode, .fmt, 28⟩, .showOpcode (.C .SD)),
  (⟨.COpcode, .fmt, 29⟩, .showOpcode (.C .ADDIW)),
  (⟨.COpcode, .fmt, 30⟩, .showOpcode (.C .SUBW)),
  (⟨.COpcode, .fmt, 31⟩, .showOpcode (.C .ADDW)),
  (⟨.COpcode, .fmt, 32⟩, .showOpcode (.C .LDSP)),
  (⟨.COpcode, .fmt, 33⟩, .showOpcode (.C .SDSP)),
  (⟨.COpcode, .get_format, 0⟩, .getFormat (.C .LW)),
  (⟨.COpcode, .get_format, 1⟩, .getFormat (.C .ADDI4SPN)),
  (⟨.COpcode, .get_format, 2⟩, .getFormat (.C .SW)),
  (⟨.COpcode, .get_format, 3⟩, .getFormat (.C .JAL)),
  (⟨.COpcode, .get_format, 4⟩, .getFormat (.C .SRLI)),
  (⟨.COpcode, .get_format, 5⟩, .getFormat (.C .ADDI)),
  (⟨.COpcode, .get_format, 6⟩, .tryFrom 1),
  (⟨.COpcode, .get_format, 7⟩, .getFormat (.C .SUB)),
  (⟨.COpcode, .get_format, 8⟩, .getFormat (.C .SLLI)),
  (⟨.COpcode, .get_format, 9⟩, .getFormat (.C .SWSP)),
  (⟨.COpcode, .get_format, 10⟩, .getFormat (.C .JR)),
  (⟨.COpcode, .get_format, 11⟩, .getFormat (.C .EBREAK)),
  (⟨.MOpcode, .fmt, 0⟩, .showOpcode (.M .MUL)),
  (⟨.MOpcode, .fmt, 1⟩, .showOpcode (.M .MULH)),
  (⟨.MOpcode, .fmt, 2⟩, .showOpcode (.M .MULHSU)),
  (⟨.MOpcode, .fmt, 3⟩, .showOpcode (.M .MULHU)),
  (⟨.MOpcode, .fmt, 4⟩, .showOpcode (.M .DIV)),
  (⟨.MOpcode, .fmt, 5⟩, .showOpcode (.M .DIVU)),
  (⟨.MOpcode, .fmt, 6⟩, .showOpcode (.M .REM)),
  (⟨.MOpcode, .fmt, 7⟩, .showOpcode (.M .REMU)),
  (⟨.MOpcode, .fmt, 8⟩, .showOpcode (.M .MULW)),
  (⟨.MOpcode, .fmt, 9⟩, .showOpcode (.M .DIVW)),
  (⟨.MOpcode, .fmt, 10⟩, .showOpcode (.M .DIVUW)),
  (⟨.MOpcode, .fmt, 11⟩, .showOpcode (.M .REMW))]

theorem differs1_0 : ((reaching1.drop 0).take 25).all differs = true := by kernel_rfl
theorem differs1_25 : ((reaching1.drop 25).take 25).all differs = true := by kernel_rfl
theorem differs1_50 : ((reaching1.drop 50).take 25).all differs = true := by kernel_rfl
theorem differs1_75 : ((reaching1.drop 75).take 25).all differs = true := by kernel_rfl
theorem differs1_100 : ((reaching1.drop 100).take 25).all differs = true := by kernel_rfl
theorem differs1_125 : ((reaching1.drop 125).take 25).all differs = true := by kernel_rfl
theorem differs1_150 : ((reaching1.drop 150).take 25).all differs = true := by kernel_rfl
theorem differs1_175 : ((reaching1.drop 175).take 25).all differs = true := by kernel_rfl
theorem differs1_200 : ((reaching1.drop 200).take 25).all differs = true := by kernel_rfl
theorem differs1_225 : ((reaching1.drop 225).take 25).all differs = true := by kernel_rfl
theorem differs1_end : (reaching1.drop 250).all differs = true := by kernel_rfl

theorem reaching1_differs : reaching1.all differs = true :=
  all_zero <| all_drop differs1_0 <|
  all_drop differs1_25 <|
  all_drop differs1_50 <|
  all_drop differs1_75 <|
  all_drop differs1_100 <|
  all_drop differs1_125 <|
  all_drop differs1_150 <|
  all_drop differs1_175 <|
  all_drop differs1_200 <|
  all_drop differs1_225 differs1_end

end Raki.Source
