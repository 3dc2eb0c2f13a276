import Verif.Source.StepsBound
import Verif.Source.Program
import Verif.Source.Codes
/-!
# How many steps the crate's functions take

For every function, a bound on the steps of calling it where calls nest at most one, two, .. six deep.  (Where calls
are not allowed to nest as deep as the function needs, they are cut short.)
-/

namespace Raki.Source

/-- The bounds. -/
def work : List (Id × Id × List Nat) := [
  (.Instruction, .try_from, [12, 63, 413, 1181, 1411, 1481]),
  (.decode, .only_rv64, [7, 7, 7, 7, 7, 7]),
  (.Instruction, .fmt, [54, 389, 1721, 7049, 28361, 113609]),
  (.instruction, .reg2str, [37, 37, 37, 37, 37, 37]),
  (.OpcodeKind, .fmt, [26, 82, 415, 1747, 7075, 28387]),
  (.OpcodeKind, .get_format, [25, 80, 105, 130, 155, 180]),
  (.AOpcode, .fmt, [27, 27, 27, 27, 27, 27]),
  (.AOpcode, .get_format, [26, 26, 26, 26, 26, 26]),
  (.BaseIOpcode, .fmt, [56, 56, 56, 56, 56, 56]),
  (.BaseIOpcode, .get_format, [55, 55, 55, 55, 55, 55]),
  (.COpcode, .fmt, [39, 39, 39, 39, 39, 39]),
  (.COpcode, .get_format, [38, 38, 38, 38, 38, 38]),
  (.MOpcode, .fmt, [18, 18, 18, 18, 18, 18]),
  (.MOpcode, .get_format, [17, 17, 17, 17, 17, 17]),
  (.PrivOpcode, .fmt, [9, 9, 9, 9, 9, 9]),
  (.PrivOpcode, .get_format, [8, 8, 8, 8, 8, 8]),
  (.ZicbozOpcode, .fmt, [6, 6, 6, 6, 6, 6]),
  (.ZicbozOpcode, .get_format, [5, 5, 5, 5, 5, 5]),
  (.ZicfissOpcode, .fmt, [12, 12, 12, 12, 12, 12]),
  (.ZicfissOpcode, .get_format, [11, 11, 11, 11, 11, 11]),
  (.ZicntrOpcode, .fmt, [11, 11, 11, 11, 11, 11]),
  (.ZicntrOpcode, .get_format, [10, 10, 10, 10, 10, 10]),
  (.ZicsrOpcode, .fmt, [11, 11, 11, 11, 11, 11]),
  (.ZicsrOpcode, .get_format, [10, 10, 10, 10, 10, 10]),
  (.ZifenceiOpcode, .fmt, [6, 6, 6, 6, 6, 6]),
  (.ZifenceiOpcode, .get_format, [5, 5, 5, 5, 5, 5]),
  (.u16, .decode, [51, 401, 1169, 1399, 1469, 1494]),
  (.u16, .parse_opcode, [17, 109, 296, 378, 378, 378]),
  (.u16, .parse_rd, [11, 65, 141, 141, 141, 141]),
  (.u16, .parse_rs1, [11, 65, 141, 141, 141, 141]),
  (.u16, .parse_rs2, [11, 51, 108, 108, 108, 108]),
  (.u16, .parse_imm, [11, 74, 511, 511, 511, 511]),
  (.u16, .slice, [19, 19, 19, 19, 19, 19]),
  (.u16, .parse_extension, [8, 8, 8, 8, 8, 8]),
  (.u16, .set, [187, 187, 187, 187, 187, 187]),
  (.u32, .decode, [40, 390, 1158, 1388, 1458, 1483]),
  (.u32, .parse_opcode, [31, 139, 333, 333, 333, 333]),
  (.u32, .parse_rd, [25, 60, 79, 79, 79, 79]),
  (.u32, .parse_rs1, [25, 67, 86, 86, 86, 86]),
  (.u32, .parse_rs2, [25, 46, 65, 65, 65, 65]),
  (.u32, .parse_imm, [25, 83, 520, 520, 520, 520]),
  (.u32, .slice, [19, 19, 19, 19, 19, 19]),
  (.u32, .parse_extension, [58, 153, 153, 153, 153, 153]),
  (.u32, .set, [167, 167, 167, 167, 167, 167]),
  (.a_extension_bit_32, .parse_opcode, [46, 110, 110, 110, 110, 110]),
  (.a_extension_bit_32, .parse_rd, [34, 53, 53, 53, 53, 53]),
  (.a_extension_bit_32, .parse_rs1, [34, 53, 53, 53, 53, 53]),
  (.a_extension_bit_32, .parse_rs2, [32, 51, 51, 51, 51, 51]),
  (.a_extension_bit_32, .parse_imm, [34, 53, 53, 53, 53, 53]),
  (.base_i_bit_32, .parse_opcode, [66, 165, 165, 165, 165, 165]),
  (.base_i_bit_32, .parse_rd, [51, 70, 70, 70, 70, 70]),
  (.base_i_bit_32, .parse_rs1, [58, 77, 77, 77, 77, 77]),
  (.base_i_bit_32, .parse_rs2, [37, 56, 56, 56, 56, 56]),
  (.base_i_bit_32, .parse_imm, [73, 510, 510, 510, 510, 510]),
  (.c_extension_bit_16, .quadrant0, [11, 18, 18, 18, 18, 18]),
  (.c_extension_bit_16, .quadrant1, [55, 137, 137, 137, 137, 137]),
  (.c_extension_bit_16, .quadrant2, [43, 100, 100, 100, 100, 100]),
  (.c_extension_bit_16, .parse_opcode, [36, 128, 210, 210, 210, 210]),
  (.c_extension_bit_16, .parse_rd, [56, 132, 132, 132, 132, 132]),
  (.c_extension_bit_16, .parse_rs1, [56, 132, 132, 132, 132, 132]),
  (.c_extension_bit_16, .parse_rs2, [42, 99, 99, 99, 99, 99]),
  (.c_extension_bit_16, .parse_imm, [65, 502, 502, 502, 502, 502]),
  (.m_extension_bit_32, .parse_opcode, [32, 75, 75, 75, 75, 75]),
  (.m_extension_bit_32, .parse_rd, [25, 44, 44, 44, 44, 44]),
  (.m_extension_bit_32, .parse_rs1, [25, 44, 44, 44, 44, 44]),
  (.m_extension_bit_32, .parse_rs2, [25, 44, 44, 44, 44, 44]),
  (.m_extension_bit_32, .parse_imm, [2, 2, 2, 2, 2, 2]),
  (.priv_extension_bit_32, .parse_opcode, [35, 92, 92, 92, 92, 92]),
  (.priv_extension_bit_32, .parse_rd, [2, 2, 2, 2, 2, 2]),
  (.priv_extension_bit_32, .parse_rs1, [13, 32, 32, 32, 32, 32]),
  (.priv_extension_bit_32, .parse_rs2, [13, 32, 32, 32, 32, 32]),
  (.priv_extension_bit_32, .parse_imm, [2, 2, 2, 2, 2, 2]),
  (.zicboz_extension_bit_32, .parse_opcode, [45, 121, 121, 121, 121, 121]),
  (.zicboz_extension_bit_32, .parse_rd, [2, 2, 2, 2, 2, 2]),
  (.zicboz_extension_bit_32, .parse_rs1, [15, 34, 34, 34, 34, 34]),
  (.zicboz_extension_bit_32, .parse_rs2, [2, 2, 2, 2, 2, 2]),
  (.zicboz_extension_bit_32, .parse_imm, [2, 2, 2, 2, 2, 2]),
  (.zicfiss_extension_bit_32, .parse_opcode, [47, 123, 123, 123, 123, 123]),
  (.zicfiss_extension_bit_32, .parse_rd, [18, 37, 37, 37, 37, 37]),
  (.zicfiss_extension_bit_32, .parse_rs1, [18, 37, 37, 37, 37, 37]),
  (.zicfiss_extension_bit_32, .parse_rs2, [18, 37, 37, 37, 37, 37]),
  (.zicfiss_extension_bit_32, .parse_imm, [11, 11, 11, 11, 11, 11]),
  (.zicfiss_extension_bit_16, .parse_opcode, [8, 8, 8, 8, 8, 8]),
  (.zicfiss_extension_bit_16, .parse_rd, [7, 7, 7, 7, 7, 7]),
  (.zicfiss_extension_bit_16, .parse_rs1, [2, 2, 2, 2, 2, 2]),
  (.zicfiss_extension_bit_16, .parse_rs2, [2, 2, 2, 2, 2, 2]),
  (.zicfiss_extension_bit_16, .parse_imm, [2, 2, 2, 2, 2, 2]),
  (.zicntr_extension_bit_32, .parse_opcode, [40, 97, 97, 97, 97, 97]),
  (.zicntr_extension_bit_32, .parse_rd, [18, 37, 37, 37, 37, 37]),
  (.zicntr_extension_bit_32, .parse_rs1, [10, 10, 10, 10, 10, 10]),
  (.zicntr_extension_bit_32, .parse_rs2, [10, 10, 10, 10, 10, 10]),
  (.zicntr_extension_bit_32, .parse_imm, [10, 10, 10, 10, 10, 10]),
  (.zicsr_extension_bit_32, .parse_opcode, [30, 68, 68, 68, 68, 68]),
  (.zicsr_extension_bit_32, .parse_rd, [18, 37, 37, 37, 37, 37]),
  (.zicsr_extension_bit_32, .parse_rs1, [15, 34, 34, 34, 34, 34]),
  (.zicsr_extension_bit_32, .parse_rs2, [18, 37, 37, 37, 37, 37]),
  (.zicsr_extension_bit_32, .parse_imm, [15, 34, 34, 34, 34, 34]),
  (.zifencei_extension_bit_32, .parse_opcode, [15, 34, 34, 34, 34, 34]),
  (.zifencei_extension_bit_32, .parse_rd, [13, 32, 32, 32, 32, 32]),
  (.zifencei_extension_bit_32, .parse_rs1, [13, 32, 32, 32, 32, 32]),
  (.zifencei_extension_bit_32, .parse_rs2, [5, 5, 5, 5, 5, 5]),
  (.zifencei_extension_bit_32, .parse_imm, [13, 32, 32, 32, 32, 32]),
  (.u16, .to_signed_nbit, [25, 25, 25, 25, 25, 25]),
  (.u32, .to_signed_nbit, [25, 25, 25, 25, 25, 25])]

/-- The bounds where calls nest at most `d` deep. -/
def workAt (d : Nat) : List (Id × Id × Nat) := work.map fun r => (r.1, r.2.1, (0 :: r.2.2).getD d 0)

theorem work_fits : (crate.all fun fn => fits 20 fn.body) = true := by kernel_rfl

theorem work_0 : covers 20 crate (workAt 0) (workAt 1) = true := by kernel_rfl
theorem work_1 : covers 20 crate (workAt 1) (workAt 2) = true := by kernel_rfl
theorem work_2 : covers 20 crate (workAt 2) (workAt 3) = true := by kernel_rfl
theorem work_3 : covers 20 crate (workAt 3) (workAt 4) = true := by kernel_rfl
theorem work_4 : covers 20 crate (workAt 4) (workAt 5) = true := by kernel_rfl
theorem work_5 : covers 20 crate (workAt 5) (workAt 6) = true := by kernel_rfl

/-- Calls nested up to six deep take no more steps than the table says. -/
theorem work_holds (md : Build) (d : Nat) (hd : d ≤ 6) : CostLe 20 (callSteps crate md d) (costs (workAt d)) := by
  refine callSteps_le md workAt 6 (fun d hd => ?_) (fun fn hm => List.all_eq_true.1 work_fits fn hm) d hd
  rcases d with _ | _ | _ | _ | _ | _ | d
  · exact work_0
  · exact work_1
  · exact work_2
  · exact work_3
  · exact work_4
  · exact work_5
  · omega

end Raki.Source
