import Verif.Source.Typing
/-!
# The types of the crate's functions

As declared in /repo/src; the declarations of `Verif.Source.Program` leave out the names of types.  `&t` is written
as `t`, and `&mut Formatter` is left out.  `Verif.Source.Heads` shows that the text of the files declares these types.
-/

namespace Raki.Source

/-- `u8` -/
abbrev u8T : T := .num .u8 true

/-- `u16` -/
abbrev u16T : T := .num .u16 true

/-- `u32` -/
abbrev u32T : T := .num .u32 true

/-- `usize` -/
abbrev usizeT : T := .num .usize true

/-- `i32` -/
abbrev i32T : T := .num .i32 true

/-- `Result<a, DecodingError>` -/
abbrev res (a : T) : T := .result a (.named .DecodingError)

/-- The types of `only_rv64`, which is generic: one for every type that implements `Opcode`, src/decode.rs:21-26. -/
def generic : List (List T × T) :=
  [.AOpcode, .BaseIOpcode, .COpcode, .MOpcode, .PrivOpcode, .ZicbozOpcode, .ZicfissOpcode, .ZicntrOpcode,
   .ZicsrOpcode, .ZifenceiOpcode].map fun x => ([.named x, .named .Isa], res (.named x))

/-- The functions of the crate, in the order of `Verif.Source.Program`: how deep calls nest, counting the
function itself, and the parameters and the result. -/
def sigs : List (Id × Id × Nat × List (List T × T)) := [
  (.AOpcode, .get_format, 1, [([.named .AOpcode], .named .InstFormat)]),
  (.BaseIOpcode, .get_format, 1, [([.named .BaseIOpcode], .named .InstFormat)]),
  (.COpcode, .get_format, 1, [([.named .COpcode], .named .InstFormat)]),
  (.MOpcode, .get_format, 1, [([.named .MOpcode], .named .InstFormat)]),
  (.PrivOpcode, .get_format, 1, [([.named .PrivOpcode], .named .InstFormat)]),
  (.ZicbozOpcode, .get_format, 1, [([.named .ZicbozOpcode], .named .InstFormat)]),
  (.ZicfissOpcode, .get_format, 1, [([.named .ZicfissOpcode], .named .InstFormat)]),
  (.ZicntrOpcode, .get_format, 1, [([.named .ZicntrOpcode], .named .InstFormat)]),
  (.ZicsrOpcode, .get_format, 1, [([.named .ZicsrOpcode], .named .InstFormat)]),
  (.ZifenceiOpcode, .get_format, 1, [([.named .ZifenceiOpcode], .named .InstFormat)]),
  (.OpcodeKind, .get_format, 2, [([.named .OpcodeKind], .named .InstFormat)]),
  (.u16, .«set», 1, [([u16T, .array u32T], u32T)]),
  (.u32, .«set», 1, [([u32T, .array u32T], u32T)]),
  (.u16, .slice, 1, [([u16T, u32T, u32T], u16T)]),
  (.u32, .slice, 1, [([u32T, u32T, u32T], u32T)]),
  (.u16, .to_signed_nbit, 1, [([u16T, i32T, u32T], i32T)]),
  (.u32, .to_signed_nbit, 1, [([u32T, i32T, u32T], i32T)]),
  (.c_extension_bit_16, .parse_imm, 2, [([u16T, .named .COpcode], .option i32T)]),
  (.zicfiss_extension_bit_16, .parse_imm, 1, [([u16T, .named .ZicfissOpcode], .option i32T)]),
  (.u16, .parse_imm, 3, [([u16T, .named .OpcodeKind, .named .Isa], res (.option i32T))]),
  (.a_extension_bit_32, .parse_imm, 2, [([u32T, .named .AOpcode], .option i32T)]),
  (.base_i_bit_32, .parse_imm, 2, [([u32T, .named .BaseIOpcode, .named .Isa], .option i32T)]),
  (.m_extension_bit_32, .parse_imm, 1, [([u32T, .named .MOpcode], .option i32T)]),
  (.priv_extension_bit_32, .parse_imm, 1, [([u32T, .named .PrivOpcode], .option i32T)]),
  (.zicboz_extension_bit_32, .parse_imm, 1, [([u32T, .named .ZicbozOpcode], .option i32T)]),
  (.zicfiss_extension_bit_32, .parse_imm, 1, [([u32T, .named .ZicfissOpcode], .option i32T)]),
  (.zicntr_extension_bit_32, .parse_imm, 1, [([u32T, .named .ZicntrOpcode], .option i32T)]),
  (.zicsr_extension_bit_32, .parse_imm, 2, [([u32T, .named .ZicsrOpcode], .option i32T)]),
  (.zifencei_extension_bit_32, .parse_imm, 2, [([u32T, .named .ZifenceiOpcode], .option i32T)]),
  (.u32, .parse_imm, 3, [([u32T, .named .OpcodeKind, .named .Isa], res (.option i32T))]),
  (.decode, .only_rv64, 1, generic),
  (.c_extension_bit_16, .quadrant0, 2, [([u16T, u8T, .named .Isa], res (.named .COpcode))]),
  (.c_extension_bit_16, .quadrant1, 2, [([u16T, u8T, .named .Isa], res (.named .COpcode))]),
  (.c_extension_bit_16, .quadrant2, 2, [([u16T, u8T, .named .Isa], res (.named .COpcode))]),
  (.c_extension_bit_16, .parse_opcode, 3, [([u16T, .named .Isa], res (.named .COpcode))]),
  (.zicfiss_extension_bit_16, .parse_opcode, 1, [([u16T, .named .Isa], res (.named .ZicfissOpcode))]),
  (.u16, .parse_extension, 1, [([u16T], res (.named .Extensions))]),
  (.u32, .parse_extension, 2, [([u32T], res (.named .Extensions))]),
  (.u16, .parse_opcode, 4, [([u16T, .named .Isa], res (.named .OpcodeKind))]),
  (.a_extension_bit_32, .parse_opcode, 2, [([u32T, .named .Isa], res (.named .AOpcode))]),
  (.base_i_bit_32, .parse_opcode, 2, [([u32T, .named .Isa], res (.named .BaseIOpcode))]),
  (.m_extension_bit_32, .parse_opcode, 2, [([u32T, .named .Isa], res (.named .MOpcode))]),
  (.priv_extension_bit_32, .parse_opcode, 2, [([u32T], res (.named .PrivOpcode))]),
  (.zicboz_extension_bit_32, .parse_opcode, 2, [([u32T], res (.named .ZicbozOpcode))]),
  (.zicfiss_extension_bit_32, .parse_opcode, 2, [([u32T], res (.named .ZicfissOpcode))]),
  (.zicntr_extension_bit_32, .parse_opcode, 2, [([u32T], res (.named .ZicntrOpcode))]),
  (.zicsr_extension_bit_32, .parse_opcode, 2, [([u32T], res (.named .ZicsrOpcode))]),
  (.zifencei_extension_bit_32, .parse_opcode, 2, [([u32T], res (.named .ZifenceiOpcode))]),
  (.u32, .parse_opcode, 3, [([u32T, .named .Isa], res (.named .OpcodeKind))]),
  (.c_extension_bit_16, .parse_rd, 2, [([u16T, .named .COpcode], .option usizeT)]),
  (.zicfiss_extension_bit_16, .parse_rd, 1, [([u16T, .named .ZicfissOpcode], .option usizeT)]),
  (.u16, .parse_rd, 3, [([u16T, .named .OpcodeKind], res (.option usizeT))]),
  (.a_extension_bit_32, .parse_rd, 2, [([u32T, .named .AOpcode], .option usizeT)]),
  (.base_i_bit_32, .parse_rd, 2, [([u32T, .named .BaseIOpcode], .option usizeT)]),
  (.m_extension_bit_32, .parse_rd, 2, [([u32T, .named .MOpcode], .option usizeT)]),
  (.priv_extension_bit_32, .parse_rd, 1, [([u32T, .named .PrivOpcode], .option usizeT)]),
  (.zicboz_extension_bit_32, .parse_rd, 1, [([u32T, .named .ZicbozOpcode], .option usizeT)]),
  (.zicfiss_extension_bit_32, .parse_rd, 2, [([u32T, .named .ZicfissOpcode], .option usizeT)]),
  (.zicntr_extension_bit_32, .parse_rd, 2, [([u32T, .named .ZicntrOpcode], .option usizeT)]),
  (.zicsr_extension_bit_32, .parse_rd, 2, [([u32T, .named .ZicsrOpcode], .option usizeT)]),
  (.zifencei_extension_bit_32, .parse_rd, 2, [([u32T, .named .ZifenceiOpcode], .option usizeT)]),
  (.u32, .parse_rd, 3, [([u32T, .named .OpcodeKind], res (.option usizeT))]),
  (.c_extension_bit_16, .parse_rs1, 2, [([u16T, .named .COpcode], .option usizeT)]),
  (.zicfiss_extension_bit_16, .parse_rs1, 1, [([u16T, .named .ZicfissOpcode], .option usizeT)]),
  (.u16, .parse_rs1, 3, [([u16T, .named .OpcodeKind], res (.option usizeT))]),
  (.a_extension_bit_32, .parse_rs1, 2, [([u32T, .named .AOpcode], .option usizeT)]),
  (.base_i_bit_32, .parse_rs1, 2, [([u32T, .named .BaseIOpcode], .option usizeT)]),
  (.m_extension_bit_32, .parse_rs1, 2, [([u32T, .named .MOpcode], .option usizeT)]),
  (.priv_extension_bit_32, .parse_rs1, 2, [([u32T, .named .PrivOpcode], .option usizeT)]),
  (.zicboz_extension_bit_32, .parse_rs1, 2, [([u32T, .named .ZicbozOpcode], .option usizeT)]),
  (.zicfiss_extension_bit_32, .parse_rs1, 2, [([u32T, .named .ZicfissOpcode], .option usizeT)]),
  (.zicntr_extension_bit_32, .parse_rs1, 1, [([u32T, .named .ZicntrOpcode], .option usizeT)]),
  (.zicsr_extension_bit_32, .parse_rs1, 2, [([u32T, .named .ZicsrOpcode], .option usizeT)]),
  (.zifencei_extension_bit_32, .parse_rs1, 2, [([u32T, .named .ZifenceiOpcode], .option usizeT)]),
  (.u32, .parse_rs1, 3, [([u32T, .named .OpcodeKind], res (.option usizeT))]),
  (.c_extension_bit_16, .parse_rs2, 2, [([u16T, .named .COpcode], .option usizeT)]),
  (.zicfiss_extension_bit_16, .parse_rs2, 1, [([u16T, .named .ZicfissOpcode], .option usizeT)]),
  (.u16, .parse_rs2, 3, [([u16T, .named .OpcodeKind], res (.option usizeT))]),
  (.a_extension_bit_32, .parse_rs2, 2, [([u32T, .named .AOpcode], .option usizeT)]),
  (.base_i_bit_32, .parse_rs2, 2, [([u32T, .named .BaseIOpcode], .option usizeT)]),
  (.m_extension_bit_32, .parse_rs2, 2, [([u32T, .named .MOpcode], .option usizeT)]),
  (.priv_extension_bit_32, .parse_rs2, 2, [([u32T, .named .PrivOpcode], .option usizeT)]),
  (.zicboz_extension_bit_32, .parse_rs2, 1, [([u32T, .named .ZicbozOpcode], .option usizeT)]),
  (.zicfiss_extension_bit_32, .parse_rs2, 2, [([u32T, .named .ZicfissOpcode], .option usizeT)]),
  (.zicntr_extension_bit_32, .parse_rs2, 1, [([u32T, .named .ZicntrOpcode], .option usizeT)]),
  (.zicsr_extension_bit_32, .parse_rs2, 2, [([u32T, .named .ZicsrOpcode], .option usizeT)]),
  (.zifencei_extension_bit_32, .parse_rs2, 1, [([u32T, .named .ZifenceiOpcode], .option usizeT)]),
  (.u32, .parse_rs2, 3, [([u32T, .named .OpcodeKind], res (.option usizeT))]),
  (.u16, .decode, 5, [([u16T, .named .Isa], res (.named .Instruction))]),
  (.u32, .decode, 4, [([u32T, .named .Isa], res (.named .Instruction))]),
  (.Instruction, .try_from, 6, [([usizeT], res (.named .Instruction))]),
  (.instruction, .reg2str, 1, [([usizeT], .str)]),
  (.AOpcode, .fmt, 1, [([.named .AOpcode], .text)]),
  (.BaseIOpcode, .fmt, 1, [([.named .BaseIOpcode], .text)]),
  (.COpcode, .fmt, 1, [([.named .COpcode], .text)]),
  (.MOpcode, .fmt, 1, [([.named .MOpcode], .text)]),
  (.PrivOpcode, .fmt, 1, [([.named .PrivOpcode], .text)]),
  (.ZicbozOpcode, .fmt, 1, [([.named .ZicbozOpcode], .text)]),
  (.ZicfissOpcode, .fmt, 1, [([.named .ZicfissOpcode], .text)]),
  (.ZicntrOpcode, .fmt, 1, [([.named .ZicntrOpcode], .text)]),
  (.ZicsrOpcode, .fmt, 1, [([.named .ZicsrOpcode], .text)]),
  (.ZifenceiOpcode, .fmt, 1, [([.named .ZifenceiOpcode], .text)]),
  (.OpcodeKind, .fmt, 2, [([.named .OpcodeKind], .text)]),
  (.Instruction, .fmt, 3, [([.named .Instruction], .text)])]

/-- The type of a function of a table, if calls may nest as deep as it needs. -/
def sigIn (d : Nat) : List (Id × Id × Nat × List (List T × T)) → Sig
  | [], _, _ => []
  | (o', f', k, l) :: ss, o, f => (match same f f' && same o o' with
    | true => (match Nat.ble k d with
      | true => l
      | false => [])
    | false => sigIn d ss o f)

/-- The types of the functions whose calls nest at most `d` deep. -/
def sigAt (d : Nat) : Sig := sigIn d sigs

end Raki.Source
