/-!
# The text of the crate

The files of /repo/src line by line.  Generated by tools/text.py; do not edit.
-/

namespace Raki.Source

/-- src/lib.rs:1-172; the whole file. -/
def lib_rs : List String :=
  ["//! raki",
   "//!",
   "//! `raki` is a RISC-V instruction decoder written in Rust.",
   "//!",
   "//! - Both 32/64bit support.",
   "//! - Support `rv32/64imac`, `Zicsr`, `Zifencei` extensions.",
   "//! - Implement Display trait for formatting.",
   "//!",
   "//! # Usage",
   "//! Call the `decode` as u16/u32 method.",
   "//! ```",
   "//! use raki::{BaseIOpcode, Decode, Instruction, Isa, OpcodeKind};",
   "//!",
   "//! fn example() {",
   "//!     let inst_bytes: u32 = 0b1110_1110_1100_0010_1000_0010_1001_0011;",
   "//!     let inst: Instruction = match inst_bytes.decode(Isa::Rv32) {",
   "//!         Ok(inst) => inst,",
   "//!         Err(e) => panic!(\"decoding failed due to {e:?}\"),",
   "//!     };",
   "//!",
   "//!     assert_eq!(inst.opc, OpcodeKind::BaseI(BaseIOpcode::ADDI));",
   "//!     println!(\"{inst}\");",
   "//! }",
   "//! // --output--",
   "//! // addi t0, t0, -276",
   "//! ```",
   "#![cfg_attr(not(test), no_std)]",
   "",
   "mod decode;",
   "mod instruction;",
   "",
   "// re-export",
   "pub use crate::decode::{Decode, DecodingError};",
   "pub use crate::instruction::{",
   "    a_extension::AOpcode, base_i::BaseIOpcode, c_extension::COpcode, m_extension::MOpcode,",
   "    priv_extension::PrivOpcode, zicboz_extension::ZicbozOpcode, zicfiss_extension::ZicfissOpcode,",
   "    zicntr_extension::ZicntrOpcode, zicsr_extension::ZicsrOpcode,",
   "    zifencei_extension::ZifenceiOpcode, InstFormat, Instruction, OpcodeKind,",
   "};",
   "",
   "/// Target isa.",
   "#[derive(Copy, Clone)]",
   "pub enum Isa {",
   "    /// 32 bit architecture.",
   "    Rv32,",
   "    /// 64 bit architecture.",
   "    Rv64,",
   "}",
   "",
   "/// RISC-V extensions",
   "#[derive(Debug)]",
   "enum Extensions {",
   "    /// Base Integer Instruction Set",
   "    BaseI,",
   "    /// Integer Multiplication and Division",
   "    M,",
   "    /// Atomic Instructions",
   "    A,",
   "    /// Compressed Instructions",
   "    C,",
   "    /// Instruction-Fetch Fence",
   "    Zifencei,",
   "    /// Cache-Block Zero Instructions",
   "    Zicboz,",
   "    /// Control and Status Register Instructions",
   "    Zicsr,",
   "    /// Shadow Stack",
   "    Zicfiss,",
   "    /// Base Counters and Timers",
   "    Zicntr,",
   "    /// Privileged Instructions",
   "    Priv,",
   "}",
   "",
   "impl TryFrom<usize> for Instruction {",
   "    type Error = DecodingError;",
   "    fn try_from(inst: usize) -> Result<Self, Self::Error> {",
   "        if inst & 0b11 == 0b11 {",
   "            u32::try_from(inst)",
   "                .expect(\"Truncation of usize to u32 failed.\")",
   "                .decode(Isa::Rv64)",
   "        } else {",
   "            u16::try_from(inst)",
   "                .expect(\"Truncation of usize to u16 failed.\")",
   "                .decode(Isa::Rv64)",
   "        }",
   "    }",
   "}",
   "",
   "#[cfg(test)]",
   "mod tests {",
   "    #[test]",
   "    fn usize_try_from_test() {",
   "        use crate::instruction::{",
   "            base_i::BaseIOpcode, c_extension::COpcode, InstFormat, Instruction, OpcodeKind,",
   "        };",
   "",
   "        assert_eq!(",
   "            Instruction::try_from(0b1111_1111_1001_1111_1111_0000_0110_1111_usize),",
   "            Ok(Instruction {",
   "                opc: OpcodeKind::BaseI(BaseIOpcode::JAL),",
   "                rd: Some(0),",
   "                rs1: None,",
   "                rs2: None,",
   "                imm: Some(-8),",
   "                inst_format: InstFormat::JFormat,",
   "                is_compressed: false,",
   "            })",
   "        );",
   "",
   "        assert_eq!(",
   "            Instruction::try_from(0x880ausize),",
   "            Ok(Instruction {",
   "                opc: OpcodeKind::C(COpcode::MV),",
   "                rd: Some(16),",
   "                rs1: None,",
   "                rs2: Some(2),",
   "                imm: None,",
   "                inst_format: InstFormat::CrFormat,",
   "                is_compressed: true,",
   "            })",
   "        );",
   "",
   "        assert_ne!(",
   "            Instruction::try_from(0x880busize),",
   "            Ok(Instruction {",
   "                opc: OpcodeKind::C(COpcode::MV),",
   "                rd: Some(16),",
   "                rs1: None,",
   "                rs2: Some(2),",
   "                imm: None,",
   "                inst_format: InstFormat::CrFormat,",
   "                is_compressed: true,",
   "            })",
   "        );",
   "",
   "        assert_eq!(",
   "            Instruction::try_from(0b1111_1111_1001_1111_1111_0000_0110_1111_usize)",
   "                .unwrap()",
   "                .opc,",
   "            OpcodeKind::BaseI(BaseIOpcode::JAL),",
   "        );",
   "    }",
   "",
   "    #[test]",
   "    fn inst_eq_test() {",
   "        use crate::decode::Decode;",
   "        use crate::instruction::{base_i::BaseIOpcode, InstFormat, Instruction, OpcodeKind};",
   "        use crate::Isa;",
   "",
   "        assert_eq!(",
   "            0b1111_1111_1001_1111_1111_0000_0110_1111_u32.decode(Isa::Rv64),",
   "            Ok(Instruction {",
   "                opc: OpcodeKind::BaseI(BaseIOpcode::JAL),",
   "                rd: Some(0),",
   "                rs1: None,",
   "                rs2: None,",
   "                imm: Some(-8),",
   "                inst_format: InstFormat::JFormat,",
   "                is_compressed: false,",
   "            })",
   "        );",
   "",
   "        assert_eq!(",
   "            0b1111_1111_1001_1111_1111_0000_0110_1111_u32",
   "                .decode(Isa::Rv64)",
   "                .unwrap()",
   "                .opc,",
   "            OpcodeKind::BaseI(BaseIOpcode::JAL),",
   "        );",
   "    }",
   "}"]

/-- src/decode.rs:1-165; the whole file. -/
def decode_rs : List String :=
  ["//! Implementation of decoder.",
   "",
   "mod inst_16;",
   "mod inst_32;",
   "",
   "mod a_extension;",
   "mod base_i;",
   "mod c_extension;",
   "mod m_extension;",
   "mod priv_extension;",
   "mod zicboz_extension;",
   "mod zicfiss_extension;",
   "mod zicntr_extension;",
   "mod zicsr_extension;",
   "mod zifencei_extension;",
   "",
   "use crate::instruction::{Instruction, Opcode, OpcodeKind};",
   "use crate::{Extensions, Isa};",
   "",
   "/// Return Err if given opcode is only available on Rv64.",
   "fn only_rv64<T: Opcode>(opcode: T, isa: Isa) -> Result<T, DecodingError> {",
   "    match isa {",
   "        Isa::Rv32 => Err(DecodingError::OnlyRv64Inst),",
   "        Isa::Rv64 => Ok(opcode),",
   "    }",
   "}",
   "",
   "/// Cause of decoding error.",
   "///",
   "/// # Example",
   "/// ```",
   "/// use raki::{Isa, Decode, DecodingError, Instruction};",
   "///",
   "/// // try to decode illegal instruction.",
   "/// let illegal_inst: u32 = 0b0000_0000_0000_0000_0000_0000_0000_0000;",
   "/// if let Err(error) = illegal_inst.decode(Isa::Rv64) {",
   "///     assert!(matches!(error, DecodingError::InvalidOpcode));",
   "/// }",
   "///",
   "/// // try to decode rv64 instruction on rv32 environment.",
   "/// let rv64_inst: u32 = 0b100000000100010011010000100011;",
   "/// if let Err(error) = rv64_inst.decode(Isa::Rv32) {",
   "///     assert!(matches!(error, DecodingError::OnlyRv64Inst));",
   "/// }",
   "/// ```",
   "#[derive(Debug, PartialEq)]",
   "pub enum DecodingError {",
   "    /// 32bit instructions are expected, but it is compressed instruction.",
   "    Not16BitInst,",
   "    /// Compressed instructions are expected, but it is 32bit length.",
   "    Not32BitInst,",
   "    /// It has unexpected Funct3 value.",
   "    InvalidFunct3,",
   "    /// It has unexpected Funct5 value.",
   "    InvalidFunct5,",
   "    /// It has unexpected Funct6 value.",
   "    InvalidFunct6,",
   "    /// It has unexpected Funct7 value.",
   "    InvalidFunct7,",
   "    /// Has an opcode that cannot be decoded.",
   "    InvalidOpcode,",
   "    /// This instruction is included in the unknown extension.",
   "    UnknownExtension,",
   "    /// Illegal instruction (e.g. all zero value instruction)",
   "    IllegalInstruction,",
   "    /// This instruction is only for Rv64 but appeared at Rv32.",
   "    OnlyRv64Inst,",
   "}",
   "",
   "/// A trait to decode an instruction from u16/u32.",
   "/// This trait provides public api.",
   "///",
   "/// # Usage",
   "/// `decode` method is implemented for u16/u32.",
   "/// thus, just call `decode` as method of u16/u32.",
   "/// ```",
   "/// use raki::{Isa, Decode};",
   "///",
   "/// let inst: u32 = 0b1110_1110_1100_0010_1000_0010_1001_0011;",
   "/// println!(\"{:?}\", inst.decode(Isa::Rv64));",
   "/// ```",
   "pub trait Decode {",
   "    /// Decode an instruction from u16/u32.",
   "    ///",
   "    /// # Errors",
   "    /// It will throws an error if target bytes is invalid for decoding.",
   "    fn decode(&self, isa: Isa) -> Result<Instruction, DecodingError>;",
   "",
   "    /// Parse opcode.",
   "    ///",
   "    /// # Errors",
   "    /// It will throws an error if opcode is unknown.",
   "    fn parse_opcode(self, isa: Isa) -> Result<OpcodeKind, DecodingError>;",
   "",
   "    /// Parse destination register.",
   "    ///",
   "    /// # Errors",
   "    /// It will throws an error if rd is invalid.",
   "    fn parse_rd(self, opkind: &OpcodeKind) -> Result<Option<usize>, DecodingError>;",
   "",
   "    /// Parse source register 1.",
   "    ///",
   "    /// # Errors",
   "    /// It will throws an error if rs1 is invalid.",
   "    fn parse_rs1(self, opkind: &OpcodeKind) -> Result<Option<usize>, DecodingError>;",
   "",
   "    /// Parse source register 2.",
   "    ///",
   "    /// # Errors",
   "    /// It will throws an error if rs2 is invalid.",
   "    fn parse_rs2(self, opkind: &OpcodeKind) -> Result<Option<usize>, DecodingError>;",
   "",
   "    /// Parse immediate.",
   "    ///",
   "    /// # Errors",
   "    /// It will throws an error if immediate is invalid.",
   "    fn parse_imm(self, opkind: &OpcodeKind, isa: Isa) -> Result<Option<i32>, DecodingError>;",
   "}",
   "",
   "/// A trait to help decoding.",
   "/// This trait provides private api.",
   "trait DecodeUtil {",
   "    /// Obtains bits in a specified range.",
   "    /// The range is `[end, start]`.",
   "    /// ```ignore",
   "    /// use raki::decode::DecodeUtil;",
   "    /// let bit = 0b0101_0101_1001;",
   "    /// let sliced = bit.slice(5, 2);",
   "    /// assert_eq!(sliced, 0b1_0110);",
   "    /// ```",
   "    /// # Arguments",
   "    /// * `end` - end of range.",
   "    /// * `start` - start of range.",
   "    fn slice(self, end: u32, start: u32) -> Self;",
   "",
   "    /// The values of the bits of Self are set to the array value positions in order from the highest to the lowest.",
   "    /// ```ignore",
   "    /// use raki::decode::DecodeUtil;",
   "    /// let bit: u32 = 0b1010_1101;",
   "    /// let sliced = bit.set(&[7, 5, 3, 2, 0, 6, 4, 1]);",
   "    /// assert_eq!(sliced, 0b1111_1000);",
   "    /// ```",
   "    /// # Arguments",
   "    /// * `mask` - It contain the bit order.",
   "    fn set(self, mask: &[u32]) -> u32;",
   "",
   "    /// Parse extension from a u16/u32 value.",
   "    ///",
   "    /// # Errors",
   "    /// It will throws `UnknownExtension` if the extension is unsupported.",
   "    fn parse_extension(self) -> Result<Extensions, DecodingError>;",
   "",
   "    /// Convert i32 to a sign-extended any size number.",
   "    /// # Arguments",
   "    /// * `imm32` - The value to be converted.",
   "    /// * `bit_size` - Bit width to be converted.",
   "    fn to_signed_nbit(&self, imm32: i32, bit_size: u32) -> i32 {",
   "        let imm32 = imm32 & (2_i32.pow(bit_size) - 1);",
   "        if imm32 >> (bit_size - 1) & 0x1 == 1 {",
   "            imm32 - 2_i32.pow(bit_size)",
   "        } else {",
   "            imm32",
   "        }",
   "    }",
   "}"]

/-- src/instruction.rs:1-496; the whole file. -/
def instruction_rs : List String :=
  ["//! Define instructions data structure.",
   "",
   "pub mod a_extension;",
   "pub mod base_i;",
   "pub mod c_extension;",
   "pub mod m_extension;",
   "pub mod priv_extension;",
   "pub mod zicboz_extension;",
   "pub mod zicfiss_extension;",
   "pub mod zicntr_extension;",
   "pub mod zicsr_extension;",
   "pub mod zifencei_extension;",
   "",
   "use core::fmt::{self, Display, Formatter};",
   "",
   "use a_extension::AOpcode;",
   "use base_i::BaseIOpcode;",
   "use c_extension::COpcode;",
   "use m_extension::MOpcode;",
   "use priv_extension::PrivOpcode;",
   "use zicboz_extension::ZicbozOpcode;",
   "use zicfiss_extension::ZicfissOpcode;",
   "use zicntr_extension::ZicntrOpcode;",
   "use zicsr_extension::ZicsrOpcode;",
   "use zifencei_extension::ZifenceiOpcode;",
   "",
   "/// Instruction",
   "#[derive(Debug, PartialEq)]",
   "pub struct Instruction {",
   "    /// Opcode",
   "    pub opc: OpcodeKind,",
   "    /// Register Destination",
   "    pub rd: Option<usize>,",
   "    /// Register Source 1",
   "    pub rs1: Option<usize>,",
   "    /// Register Source 2",
   "    pub rs2: Option<usize>,",
   "    /// Immediate",
   "    pub imm: Option<i32>,",
   "    /// Instruction format",
   "    pub inst_format: InstFormat,",
   "    /// Is compressed instruction?",
   "    pub is_compressed: bool,",
   "}",
   "",
   "impl Display for Instruction {",
   "    #[allow(clippy::too_many_lines)]",
   "    fn fmt(&self, f: &mut Formatter) -> fmt::Result {",
   "        match self.inst_format {",
   "            InstFormat::RFormat | InstFormat::MFormat => {",
   "                write!(",
   "                    f,",
   "                    \"{} {}, {}, {}\",",
   "                    self.opc,",
   "                    reg2str(self.rd.unwrap()),",
   "                    reg2str(self.rs1.unwrap()),",
   "                    reg2str(self.rs2.unwrap())",
   "                )",
   "            }",
   "            InstFormat::AFormat => match self.opc {",
   "                OpcodeKind::A(AOpcode::LR_W | AOpcode::LR_D) => write!(",
   "                    f,",
   "                    \"{} {}, {}\",",
   "                    self.opc,",
   "                    reg2str(self.rd.unwrap()),",
   "                    reg2str(self.rs1.unwrap()),",
   "                ),",
   "                _ => write!(",
   "                    f,",
   "                    \"{} {}, {}, {}\",",
   "                    self.opc,",
   "                    reg2str(self.rd.unwrap()),",
   "                    reg2str(self.rs1.unwrap()),",
   "                    reg2str(self.rs2.unwrap())",
   "                ),",
   "            },",
   "            InstFormat::RShamtFormat => {",
   "                write!(",
   "                    f,",
   "                    \"{} {}, {}\",",
   "                    self.opc,",
   "                    reg2str(self.rd.unwrap()),",
   "                    reg2str(self.rs1.unwrap()),",
   "                )",
   "            }",
   "            InstFormat::ClFormat | InstFormat::ALrFormat | InstFormat::IFormat => write!(",
   "                f,",
   "                \"{} {}, {}, {}\",",
   "                self.opc,",
   "                reg2str(self.rd.unwrap()),",
   "                reg2str(self.rs1.unwrap()),",
   "                self.imm.unwrap()",
   "            ),",
   "            InstFormat::CsFormat | InstFormat::SFormat | InstFormat::BFormat => write!(",
   "                f,",
   "                \"{} {}, {}({})\",",
   "                self.opc,",
   "                reg2str(self.rs1.unwrap()),",
   "                self.imm.unwrap(),",
   "                reg2str(self.rs2.unwrap()),",
   "            ),",
   "            InstFormat::CiwFormat => {",
   "                write!(",
   "                    f,",
   "                    \"{} {}, sp, {:x}\",",
   "                    self.opc,",
   "                    reg2str(self.rd.unwrap()),",
   "                    self.imm.unwrap()",
   "                )",
   "            }",
   "            InstFormat::CssFormat => {",
   "                write!(",
   "                    f,",
   "                    \"{} {}, {}(sp)\",",
   "                    self.opc,",
   "                    reg2str(self.rs2.unwrap()),",
   "                    self.imm.unwrap()",
   "                )",
   "            }",
   "            InstFormat::UFormat | InstFormat::JFormat => {",
   "                write!(",
   "                    f,",
   "                    \"{} {}, {:#x}\",",
   "                    self.opc,",
   "                    reg2str(self.rd.unwrap()),",
   "                    self.imm.unwrap()",
   "                )",
   "            }",
   "            InstFormat::CjFormat => {",
   "                write!(f, \"{} {}\", self.opc, self.imm.unwrap())",
   "            }",
   "            InstFormat::CiFormat => {",
   "                write!(",
   "                    f,",
   "                    \"{} {}, {}, {}\",",
   "                    self.opc,",
   "                    reg2str(self.rd.unwrap()),",
   "                    reg2str(self.rd.unwrap()),",
   "                    self.imm.unwrap()",
   "                )",
   "            }",
   "            InstFormat::CrFormat => match self.opc {",
   "                OpcodeKind::C(COpcode::JR) => {",
   "                    write!(f, \"{} zero, 0({})\", self.opc, reg2str(self.rs1.unwrap()),)",
   "                }",
   "                OpcodeKind::C(COpcode::JALR) => {",
   "                    write!(f, \"{} ra, 0({})\", self.opc, reg2str(self.rs1.unwrap()),)",
   "                }",
   "                OpcodeKind::C(COpcode::MV) => write!(",
   "                    f,",
   "                    \"{} {}, {}\",",
   "                    self.opc,",
   "                    reg2str(self.rd.unwrap()),",
   "                    reg2str(self.rs2.unwrap())",
   "                ),",
   "                OpcodeKind::C(COpcode::ADD) => write!(",
   "                    f,",
   "                    \"{} {}, {}, {}\",",
   "                    self.opc,",
   "                    reg2str(self.rd.unwrap()),",
   "                    reg2str(self.rd.unwrap()),",
   "                    reg2str(self.rs2.unwrap())",
   "                ),",
   "                _ => unreachable!(),",
   "            },",
   "            InstFormat::CaFormat => {",
   "                write!(",
   "                    f,",
   "                    \"{} {}, {}, {}\",",
   "                    self.opc,",
   "                    reg2str(self.rd.unwrap()),",
   "                    reg2str(self.rd.unwrap()),",
   "                    reg2str(self.rs2.unwrap())",
   "                )",
   "            }",
   "            InstFormat::CbFormat => {",
   "                write!(",
   "                    f,",
   "                    \"{} {}, {}\",",
   "                    self.opc,",
   "                    self.rs1.unwrap(),",
   "                    self.imm.unwrap(),",
   "                )",
   "            }",
   "            InstFormat::CsrFormat => {",
   "                write!(",
   "                    f,",
   "                    \"{} {}, {:#x}, {}\",",
   "                    self.opc,",
   "                    reg2str(self.rd.unwrap()),",
   "                    self.rs2.unwrap(),",
   "                    reg2str(self.rs1.unwrap()),",
   "                )",
   "            }",
   "            InstFormat::CsrUiFormat => {",
   "                write!(",
   "                    f,",
   "                    \"{} {}, {}, {}\",",
   "                    self.opc,",
   "                    reg2str(self.rd.unwrap()),",
   "                    self.rs2.unwrap(),",
   "                    self.imm.unwrap(),",
   "                )",
   "            }",
   "            InstFormat::OnlyRd => {",
   "                write!(f, \"{} {}\", self.opc, reg2str(self.rd.unwrap()),)",
   "            }",
   "            InstFormat::OnlyRs1 => {",
   "                write!(f, \"{} {}\", self.opc, reg2str(self.rs1.unwrap()),)",
   "            }",
   "            InstFormat::OnlyRs2 => {",
   "                write!(f, \"{} {}\", self.opc, reg2str(self.rs2.unwrap()),)",
   "            }",
   "            InstFormat::NoOperand => match self.opc {",
   "                OpcodeKind::BaseI(BaseIOpcode::ECALL | BaseIOpcode::EBREAK)",
   "                | OpcodeKind::Zifencei(ZifenceiOpcode::FENCE)",
   "                | OpcodeKind::C(COpcode::NOP | COpcode::EBREAK)",
   "                | OpcodeKind::Priv(",
   "                    PrivOpcode::MRET | PrivOpcode::SRET | PrivOpcode::WFI | PrivOpcode::SFENCE_VMA,",
   "                ) => write!(f, \"{}\", self.opc),",
   "                _ => unreachable!(),",
   "            },",
   "        }",
   "    }",
   "}",
   "",
   "/// Convert register number to string.",
   "fn reg2str(rd_value: usize) -> &'static str {",
   "    match rd_value {",
   "        0 => \"zero\",",
   "        1 => \"ra\",",
   "        2 => \"sp\",",
   "        3 => \"gp\",",
   "        4 => \"tp\",",
   "        5 => \"t0\",",
   "        6 => \"t1\",",
   "        7 => \"t2\",",
   "        8 => \"s0\", // fp",
   "        9 => \"s1\",",
   "        10 => \"a0\",",
   "        11 => \"a1\",",
   "        12 => \"a2\",",
   "        13 => \"a3\",",
   "        14 => \"a4\",",
   "        15 => \"a5\",",
   "        16 => \"a6\",",
   "        17 => \"a7\",",
   "        18 => \"s2\",",
   "        19 => \"s3\",",
   "        20 => \"s4\",",
   "        21 => \"s5\",",
   "        22 => \"s6\",",
   "        23 => \"s7\",",
   "        24 => \"s8\",",
   "        25 => \"s9\",",
   "        26 => \"s10\",",
   "        27 => \"s11\",",
   "        28 => \"t3\",",
   "        29 => \"t4\",",
   "        30 => \"t5\",",
   "        31 => \"t6\",",
   "        _ => panic!(\"unknown register\"),",
   "    }",
   "}",
   "",
   "/// Instruction format",
   "/// See: [The RISC-V Instruction Set Manual: Volume II Version 20240411](https://github.com/riscv/riscv-isa-manual/releases/download/20240411/priv-isa-asciidoc.pdf) p.23,141",
   "#[derive(Debug, PartialEq)]",
   "pub enum InstFormat {",
   "    /// Regular format",
   "    /// ```ignore",
   "    /// add rd, rs1, rs2",
   "    /// ```",
   "    RFormat,",
   "",
   "    /// Regular format with shamt",
   "    /// ```ignore",
   "    /// srai rd, rs1",
   "    /// ```",
   "    RShamtFormat,",
   "",
   "    /// Immediate format",
   "    /// ```ignore",
   "    /// lw rd, imm(rs1)",
   "    /// ```",
   "    IFormat,",
   "",
   "    /// Store format",
   "    /// ```ignore",
   "    /// sw rs2, imm(rs1)",
   "    /// ```",
   "    SFormat,",
   "",
   "    /// Branch format",
   "    /// ```ignore",
   "    /// beq rs1, rs2, imm",
   "    /// ```",
   "    BFormat,",
   "",
   "    /// Upper immediate format",
   "    /// ```ignore",
   "    /// lui rd, imm",
   "    /// ```",
   "    UFormat,",
   "",
   "    /// Jump format",
   "    /// ```ignore",
   "    /// jal rd, imm",
   "    /// ```",
   "    JFormat,",
   "",
   "    /// Compressed Register format",
   "    /// ```ignore",
   "    /// c.mv rd, rs2",
   "    /// c.add rd, rd, rs2",
   "    /// ```",
   "    CrFormat,",
   "",
   "    /// Compressed Immediate format",
   "    /// ```ignore",
   "    /// c.nop",
   "    /// c.addi rd, rd, imm",
   "    /// c.addi16sp x2, x2, nzimm",
   "    /// ```",
   "    CiFormat,",
   "",
   "    /// Compressed Stack-relative Store format",
   "    /// ```ignore",
   "    /// c.swsp rs2, imm",
   "    /// -> sw rs2, imm[8:3](x2)",
   "    /// ```",
   "    CssFormat,",
   "",
   "    /// Compressed Wide Immediate Store format",
   "    /// ```ignore",
   "    /// c.addi4spn rd, x2, nzuimm",
   "    /// ```",
   "    CiwFormat,",
   "",
   "    /// Compressed Load format",
   "    /// ```ignore",
   "    /// c.lw rd imm(rs1)",
   "    /// ```",
   "    ClFormat,",
   "",
   "    /// Compressed Store format",
   "    /// ```ignore",
   "    /// c.sw rs2, imm(rs1)",
   "    /// ```",
   "    CsFormat,",
   "",
   "    /// Compressed Arithmetic format",
   "    /// ```ignore",
   "    /// c.and rd, rd, rs2",
   "    /// ```",
   "    CaFormat,",
   "",
   "    /// Compressed Branch format",
   "    /// ```ignore",
   "    /// c.beqz rs1, imm",
   "    /// c.srai rd, rd, shamt",
   "    /// ```",
   "    CbFormat,",
   "",
   "    /// Compressed Jump format",
   "    /// ```ignore",
   "    /// c.j imm",
   "    /// ```",
   "    CjFormat,",
   "",
   "    /// Compressed Csr format",
   "    /// ```ignore",
   "    /// csrrw rd, csr, rs1",
   "    /// csrrwi rd, csr, imm",
   "    /// ```",
   "    CsrFormat,",
   "",
   "    /// Csr with uimm format",
   "    /// ```ignore",
   "    /// csrrwi rd, csr, imm",
   "    /// ```",
   "    CsrUiFormat,",
   "",
   "    /// M-extension instruction format",
   "    /// ```ignore",
   "    /// mul rd, rs1, rs2",
   "    /// ```",
   "    MFormat,",
   "",
   "    /// A-extension instruction format",
   "    /// ```ignore",
   "    /// sc.w rd, rs2, (rs1)",
   "    /// ```",
   "    AFormat,",
   "",
   "    /// lr.w instruction format in A-extension",
   "    /// ```ignore",
   "    /// lr.w rd, (rs1)",
   "    /// ```",
   "    ALrFormat,",
   "",
   "    /// No operand",
   "    /// ```ignore",
   "    /// ecall",
   "    /// wfi",
   "    /// mret",
   "    /// c.ebreak",
   "    /// ```",
   "    NoOperand,",
   "",
   "    /// Only rd name",
   "    /// ```ignore",
   "    /// rdtime rd",
   "    /// ssrdp rd",
   "    /// ```",
   "    OnlyRd,",
   "",
   "    /// Only rs1 name",
   "    /// ```ignore",
   "    /// sspush ra",
   "    /// ```",
   "    OnlyRs1,",
   "",
   "    /// Only rs2 name",
   "    /// ```ignore",
   "    /// sspopchk t0",
   "    /// ```",
   "    OnlyRs2,",
   "}",
   "",
   "/// Trait for `OpcodeKind`",
   "pub trait Opcode {",
   "    /// Get Instruction format (e.g. R-type, I-type, S-type, etc...)",
   "    /// See: Chapter 34. RV32/64G Instruction Set Listings, p.554",
   "    fn get_format(&self) -> InstFormat;",
   "}",
   "",
   "/// Extension type and Instruction name.",
   "#[derive(Debug, PartialEq)]",
   "pub enum OpcodeKind {",
   "    /// Base Integer Instruction Set",
   "    BaseI(BaseIOpcode),",
   "    /// Integer Multiplication and Division",
   "    M(MOpcode),",
   "    /// Atomic Instructions",
   "    A(AOpcode),",
   "    /// Compressed Instructions",
   "    C(COpcode),",
   "    /// Instruction-Fetch Fence,",
   "    Zifencei(ZifenceiOpcode),",
   "    /// Cache-Block Zero Instructions",
   "    Zicboz(ZicbozOpcode),",
   "    /// Control and Status Register Instructions",
   "    Zicsr(ZicsrOpcode),",
   "    /// CFI Shadow Stack",
   "    Zicfiss(ZicfissOpcode),",
   "    /// Base Counters and Timers",
   "    Zicntr(ZicntrOpcode),",
   "    /// Privileged Instructions",
   "    Priv(PrivOpcode),",
   "}",
   "",
   "impl Display for OpcodeKind {",
   "    fn fmt(&self, f: &mut Formatter) -> fmt::Result {",
   "        match self {",
   "            Self::BaseI(opc) => write!(f, \"{opc}\"),",
   "            Self::M(opc) => write!(f, \"{opc}\"),",
   "            Self::A(opc) => write!(f, \"{opc}\"),",
   "            Self::C(opc) => write!(f, \"{opc}\"),",
   "            Self::Zifencei(opc) => write!(f, \"{opc}\"),",
   "            Self::Zicboz(opc) => write!(f, \"{opc}\"),",
   "            Self::Zicsr(opc) => write!(f, \"{opc}\"),",
   "            Self::Zicfiss(opc) => write!(f, \"{opc}\"),",
   "            Self::Zicntr(opc) => write!(f, \"{opc}\"),",
   "            Self::Priv(opc) => write!(f, \"{opc}\"),",
   "        }",
   "    }",
   "}",
   "",
   "impl OpcodeKind {",
   "    #[must_use]",
   "    pub fn get_format(&self) -> InstFormat {",
   "        match &self {",
   "            Self::BaseI(opc) => opc.get_format(),",
   "            Self::M(opc) => opc.get_format(),",
   "            Self::A(opc) => opc.get_format(),",
   "            Self::C(opc) => opc.get_format(),",
   "            Self::Zifencei(opc) => opc.get_format(),",
   "            Self::Zicboz(opc) => opc.get_format(),",
   "            Self::Zicsr(opc) => opc.get_format(),",
   "            Self::Zicfiss(opc) => opc.get_format(),",
   "            Self::Zicntr(opc) => opc.get_format(),",
   "            Self::Priv(opc) => opc.get_format(),",
   "        }",
   "    }",
   "}"]

/-- src/instruction/a_extension.rs:1-92; the whole file. -/
def instruction_a_extension_rs : List String :=
  ["//! A extension Insturction.",
   "",
   "use super::{InstFormat, Opcode};",
   "use core::fmt::{self, Display, Formatter};",
   "",
   "/// Insturctions in A Extension.",
   "#[allow(non_camel_case_types)]",
   "#[derive(Debug, PartialEq)]",
   "pub enum AOpcode {",
   "    LR_W,",
   "    SC_W,",
   "    AMOSWAP_W,",
   "    AMOADD_W,",
   "    AMOXOR_W,",
   "    AMOAND_W,",
   "    AMOOR_W,",
   "    AMOMIN_W,",
   "    AMOMAX_W,",
   "    AMOMINU_W,",
   "    AMOMAXU_W,",
   "",
   "    //-- rv64 only --",
   "    LR_D,",
   "    SC_D,",
   "    AMOSWAP_D,",
   "    AMOADD_D,",
   "    AMOXOR_D,",
   "    AMOAND_D,",
   "    AMOOR_D,",
   "    AMOMIN_D,",
   "    AMOMAX_D,",
   "    AMOMINU_D,",
   "    AMOMAXU_D,",
   "}",
   "",
   "impl Display for AOpcode {",
   "    fn fmt(&self, f: &mut Formatter) -> fmt::Result {",
   "        match self {",
   "            AOpcode::LR_W => write!(f, \"lr.w\"),",
   "            AOpcode::SC_W => write!(f, \"sc.w\"),",
   "            AOpcode::AMOSWAP_W => write!(f, \"amoswap.w\"),",
   "            AOpcode::AMOADD_W => write!(f, \"amoadd.w\"),",
   "            AOpcode::AMOXOR_W => write!(f, \"amoxor.w\"),",
   "            AOpcode::AMOAND_W => write!(f, \"amoand.w\"),",
   "            AOpcode::AMOOR_W => write!(f, \"amoor.w\"),",
   "            AOpcode::AMOMIN_W => write!(f, \"amomin.w\"),",
   "            AOpcode::AMOMAX_W => write!(f, \"amomax.w\"),",
   "            AOpcode::AMOMINU_W => write!(f, \"amominu.w\"),",
   "            AOpcode::AMOMAXU_W => write!(f, \"amomaxu.w\"),",
   "            AOpcode::LR_D => write!(f, \"lr.d\"),",
   "            AOpcode::SC_D => write!(f, \"sc.d\"),",
   "            AOpcode::AMOSWAP_D => write!(f, \"amoswap.d\"),",
   "            AOpcode::AMOADD_D => write!(f, \"amoadd.d\"),",
   "            AOpcode::AMOXOR_D => write!(f, \"amoxor.d\"),",
   "            AOpcode::AMOAND_D => write!(f, \"amoand.d\"),",
   "            AOpcode::AMOOR_D => write!(f, \"amoor.d\"),",
   "            AOpcode::AMOMIN_D => write!(f, \"amomin.d\"),",
   "            AOpcode::AMOMAX_D => write!(f, \"amomax.d\"),",
   "            AOpcode::AMOMINU_D => write!(f, \"amominu.d\"),",
   "            AOpcode::AMOMAXU_D => write!(f, \"amomaxu.d\"),",
   "        }",
   "    }",
   "}",
   "",
   "impl Opcode for AOpcode {",
   "    fn get_format(&self) -> InstFormat {",
   "        match self {",
   "            AOpcode::LR_W => InstFormat::ALrFormat,",
   "            AOpcode::SC_W",
   "            | AOpcode::AMOSWAP_W",
   "            | AOpcode::AMOADD_W",
   "            | AOpcode::AMOXOR_W",
   "            | AOpcode::AMOAND_W",
   "            | AOpcode::AMOOR_W",
   "            | AOpcode::AMOMIN_W",
   "            | AOpcode::AMOMAX_W",
   "            | AOpcode::AMOMINU_W",
   "            | AOpcode::AMOMAXU_W",
   "            | AOpcode::LR_D",
   "            | AOpcode::SC_D",
   "            | AOpcode::AMOSWAP_D",
   "            | AOpcode::AMOADD_D",
   "            | AOpcode::AMOXOR_D",
   "            | AOpcode::AMOAND_D",
   "            | AOpcode::AMOOR_D",
   "            | AOpcode::AMOMIN_D",
   "            | AOpcode::AMOMAX_D",
   "            | AOpcode::AMOMINU_D",
   "            | AOpcode::AMOMAXU_D => InstFormat::AFormat,",
   "        }",
   "    }",
   "}"]

/-- src/instruction/base_i.rs:1-176; the whole file. -/
def instruction_base_i_rs : List String :=
  ["//! Base I Instructions.",
   "",
   "use super::{InstFormat, Opcode};",
   "use core::fmt::{self, Display, Formatter};",
   "",
   "/// Insturctions in Base-I.",
   "#[allow(non_camel_case_types, clippy::module_name_repetitions)]",
   "#[derive(Debug, PartialEq)]",
   "pub enum BaseIOpcode {",
   "    LUI,",
   "    AUIPC,",
   "    JAL,",
   "    JALR,",
   "    BEQ,",
   "    BNE,",
   "    BLT,",
   "    BGE,",
   "    BLTU,",
   "    BGEU,",
   "    LB,",
   "    LH,",
   "    LW,",
   "    LBU,",
   "    LHU,",
   "    SB,",
   "    SH,",
   "    SW,",
   "    ADDI,",
   "    SLTI,",
   "    SLTIU,",
   "    XORI,",
   "    ORI,",
   "    ANDI,",
   "    SLLI,",
   "    SRLI,",
   "    SRAI,",
   "    ADD,",
   "    SUB,",
   "    SLL,",
   "    SLT,",
   "    SLTU,",
   "    XOR,",
   "    SRL,",
   "    SRA,",
   "    OR,",
   "    AND,",
   "    ECALL,",
   "    EBREAK,",
   "",
   "    //-- rv64 only --",
   "    LWU,",
   "    LD,",
   "    SD,",
   "    ADDIW,",
   "    SLLIW,",
   "    SRLIW,",
   "    SRAIW,",
   "    ADDW,",
   "    SUBW,",
   "    SLLW,",
   "    SRLW,",
   "    SRAW,",
   "}",
   "",
   "impl Display for BaseIOpcode {",
   "    fn fmt(&self, f: &mut Formatter) -> fmt::Result {",
   "        match self {",
   "            BaseIOpcode::LUI => write!(f, \"lui\"),",
   "            BaseIOpcode::AUIPC => write!(f, \"auipc\"),",
   "            BaseIOpcode::JAL => write!(f, \"jal\"),",
   "            BaseIOpcode::JALR => write!(f, \"jalr\"),",
   "            BaseIOpcode::BEQ => write!(f, \"beq\"),",
   "            BaseIOpcode::BNE => write!(f, \"bne\"),",
   "            BaseIOpcode::BLT => write!(f, \"blt\"),",
   "            BaseIOpcode::BGE => write!(f, \"bge\"),",
   "            BaseIOpcode::BLTU => write!(f, \"bltu\"),",
   "            BaseIOpcode::BGEU => write!(f, \"bgeu\"),",
   "            BaseIOpcode::LB => write!(f, \"lb\"),",
   "            BaseIOpcode::LH => write!(f, \"lh\"),",
   "            BaseIOpcode::LW => write!(f, \"lw\"),",
   "            BaseIOpcode::LBU => write!(f, \"lbu\"),",
   "            BaseIOpcode::LHU => write!(f, \"lhu\"),",
   "            BaseIOpcode::SB => write!(f, \"sb\"),",
   "            BaseIOpcode::SH => write!(f, \"sh\"),",
   "            BaseIOpcode::SW => write!(f, \"sw\"),",
   "            BaseIOpcode::ADDI => write!(f, \"addi\"),",
   "            BaseIOpcode::SLTI => write!(f, \"slti\"),",
   "            BaseIOpcode::SLTIU => write!(f, \"sltiu\"),",
   "            BaseIOpcode::XORI => write!(f, \"xori\"),",
   "            BaseIOpcode::ORI => write!(f, \"ori\"),",
   "            BaseIOpcode::ANDI => write!(f, \"andi\"),",
   "            BaseIOpcode::SLLI => write!(f, \"slli\"),",
   "            BaseIOpcode::SRLI => write!(f, \"srli\"),",
   "            BaseIOpcode::SRAI => write!(f, \"srai\"),",
   "            BaseIOpcode::ADD => write!(f, \"add\"),",
   "            BaseIOpcode::SUB => write!(f, \"sub\"),",
   "            BaseIOpcode::SLL => write!(f, \"sll\"),",
   "            BaseIOpcode::SLT => write!(f, \"slt\"),",
   "            BaseIOpcode::SLTU => write!(f, \"sltu\"),",
   "            BaseIOpcode::XOR => write!(f, \"xor\"),",
   "            BaseIOpcode::SRL => write!(f, \"srl\"),",
   "            BaseIOpcode::SRA => write!(f, \"sra\"),",
   "            BaseIOpcode::OR => write!(f, \"or\"),",
   "            BaseIOpcode::AND => write!(f, \"and\"),",
   "            BaseIOpcode::ECALL => write!(f, \"ecall\"),",
   "            BaseIOpcode::EBREAK => write!(f, \"ebreak\"),",
   "            BaseIOpcode::LWU => write!(f, \"lwu\"),",
   "            BaseIOpcode::LD => write!(f, \"ld\"),",
   "            BaseIOpcode::SD => write!(f, \"sd\"),",
   "            BaseIOpcode::ADDIW => write!(f, \"addiw\"),",
   "            BaseIOpcode::SLLIW => write!(f, \"slliw\"),",
   "            BaseIOpcode::SRLIW => write!(f, \"srliw\"),",
   "            BaseIOpcode::SRAIW => write!(f, \"sraiw\"),",
   "            BaseIOpcode::ADDW => write!(f, \"addw\"),",
   "            BaseIOpcode::SUBW => write!(f, \"subw\"),",
   "            BaseIOpcode::SLLW => write!(f, \"sllw\"),",
   "            BaseIOpcode::SRLW => write!(f, \"srlw\"),",
   "            BaseIOpcode::SRAW => write!(f, \"sraw\"),",
   "        }",
   "    }",
   "}",
   "",
   "impl Opcode for BaseIOpcode {",
   "    fn get_format(&self) -> InstFormat {",
   "        match self {",
   "            BaseIOpcode::BEQ",
   "            | BaseIOpcode::BNE",
   "            | BaseIOpcode::BLT",
   "            | BaseIOpcode::BGE",
   "            | BaseIOpcode::BLTU",
   "            | BaseIOpcode::BGEU => InstFormat::BFormat,",
   "            BaseIOpcode::JALR",
   "            | BaseIOpcode::LB",
   "            | BaseIOpcode::LH",
   "            | BaseIOpcode::LW",
   "            | BaseIOpcode::LBU",
   "            | BaseIOpcode::LHU",
   "            | BaseIOpcode::ADDI",
   "            | BaseIOpcode::SLTI",
   "            | BaseIOpcode::SLTIU",
   "            | BaseIOpcode::XORI",
   "            | BaseIOpcode::ORI",
   "            | BaseIOpcode::ANDI",
   "            | BaseIOpcode::LWU",
   "            | BaseIOpcode::LD",
   "            | BaseIOpcode::ADDIW => InstFormat::IFormat,",
   "            BaseIOpcode::SLLI",
   "            | BaseIOpcode::SRLI",
   "            | BaseIOpcode::SRAI",
   "            | BaseIOpcode::SLLIW",
   "            | BaseIOpcode::SRLIW",
   "            | BaseIOpcode::SRAIW => InstFormat::RShamtFormat,",
   "            BaseIOpcode::ADD",
   "            | BaseIOpcode::SUB",
   "            | BaseIOpcode::SLL",
   "            | BaseIOpcode::SLT",
   "            | BaseIOpcode::SLTU",
   "            | BaseIOpcode::XOR",
   "            | BaseIOpcode::SRL",
   "            | BaseIOpcode::SRA",
   "            | BaseIOpcode::OR",
   "            | BaseIOpcode::AND",
   "            | BaseIOpcode::ADDW",
   "            | BaseIOpcode::SUBW",
   "            | BaseIOpcode::SLLW",
   "            | BaseIOpcode::SRLW",
   "            | BaseIOpcode::SRAW => InstFormat::RFormat,",
   "            BaseIOpcode::SB | BaseIOpcode::SH | BaseIOpcode::SW | BaseIOpcode::SD => {",
   "                InstFormat::SFormat",
   "            }",
   "            BaseIOpcode::JAL => InstFormat::JFormat,",
   "            BaseIOpcode::LUI | BaseIOpcode::AUIPC => InstFormat::UFormat,",
   "            BaseIOpcode::ECALL | BaseIOpcode::EBREAK => InstFormat::NoOperand,",
   "        }",
   "    }",
   "}"]

/-- src/instruction/c_extension.rs:1-121; the whole file. -/
def instruction_c_extension_rs : List String :=
  ["//! C extension Insturction.",
   "",
   "use super::{InstFormat, Opcode};",
   "use core::fmt::{self, Display, Formatter};",
   "",
   "/// Insturctions in C Extension.",
   "#[allow(non_camel_case_types)]",
   "#[derive(Debug, PartialEq)]",
   "pub enum COpcode {",
   "    ADDI4SPN,",
   "    LW,",
   "    SW,",
   "    NOP,",
   "    ADDI,",
   "    JAL,",
   "    LI,",
   "    ADDI16SP,",
   "    LUI,",
   "    SRLI,",
   "    SRAI,",
   "    ANDI,",
   "    SUB,",
   "    XOR,",
   "    OR,",
   "    AND,",
   "    J,",
   "    BEQZ,",
   "    BNEZ,",
   "    SLLI,",
   "    LWSP,",
   "    JR,",
   "    MV,",
   "    EBREAK,",
   "    JALR,",
   "    ADD,",
   "    SWSP,",
   "",
   "    //-- rv64 only --",
   "    LD,",
   "    SD,",
   "    ADDIW,",
   "    SUBW,",
   "    ADDW,",
   "    LDSP,",
   "    SDSP,",
   "}",
   "",
   "impl Display for COpcode {",
   "    fn fmt(&self, f: &mut Formatter) -> fmt::Result {",
   "        match self {",
   "            COpcode::ADDI4SPN => write!(f, \"C.addi4spn\"),",
   "            COpcode::LW => write!(f, \"C.lw\"),",
   "            COpcode::SW => write!(f, \"C.sw\"),",
   "            COpcode::NOP => write!(f, \"C.nop\"),",
   "            COpcode::ADDI => write!(f, \"C.addi\"),",
   "            COpcode::JAL => write!(f, \"C.jal\"),",
   "            COpcode::LI => write!(f, \"C.li\"),",
   "            COpcode::ADDI16SP => write!(f, \"C.addi16sp\"),",
   "            COpcode::LUI => write!(f, \"C.lui\"),",
   "            COpcode::SRLI => write!(f, \"C.srli\"),",
   "            COpcode::SRAI => write!(f, \"C.srai\"),",
   "            COpcode::ANDI => write!(f, \"C.andi\"),",
   "            COpcode::SUB => write!(f, \"C.sub\"),",
   "            COpcode::XOR => write!(f, \"C.xor\"),",
   "            COpcode::OR => write!(f, \"C.or\"),",
   "            COpcode::AND => write!(f, \"C.and\"),",
   "            COpcode::J => write!(f, \"C.j\"),",
   "            COpcode::BEQZ => write!(f, \"C.beqz\"),",
   "            COpcode::BNEZ => write!(f, \"C.bnez\"),",
   "            COpcode::SLLI => write!(f, \"C.slli\"),",
   "            COpcode::LWSP => write!(f, \"C.lwsp\"),",
   "            COpcode::JR => write!(f, \"C.jr\"),",
   "            COpcode::MV => write!(f, \"C.mv\"),",
   "            COpcode::EBREAK => write!(f, \"C.ebreak\"),",
   "            COpcode::JALR => write!(f, \"C.jalr\"),",
   "            COpcode::ADD => write!(f, \"C.add\"),",
   "            COpcode::SWSP => write!(f, \"C.swsp\"),",
   "            COpcode::LD => write!(f, \"C.ld\"),",
   "            COpcode::SD => write!(f, \"C.sd\"),",
   "            COpcode::ADDIW => write!(f, \"C.addiw\"),",
   "            COpcode::SUBW => write!(f, \"C.subw\"),",
   "            COpcode::ADDW => write!(f, \"C.addw\"),",
   "            COpcode::LDSP => write!(f, \"C.ldsp\"),",
   "            COpcode::SDSP => write!(f, \"C.sdsp\"),",
   "        }",
   "    }",
   "}",
   "",
   "impl Opcode for COpcode {",
   "    #[allow(clippy::match_same_arms)]",
   "    fn get_format(&self) -> InstFormat {",
   "        match self {",
   "            // Quadrant 0",
   "            COpcode::LW | COpcode::LD => InstFormat::ClFormat,",
   "            COpcode::ADDI4SPN => InstFormat::CiwFormat,",
   "            COpcode::SW | COpcode::SD => InstFormat::CsFormat,",
   "",
   "            // Quadrant 1",
   "            COpcode::JAL | COpcode::J => InstFormat::CjFormat,",
   "            COpcode::BEQZ | COpcode::ANDI | COpcode::SRLI | COpcode::SRAI | COpcode::BNEZ => {",
   "                InstFormat::CbFormat",
   "            }",
   "            COpcode::LI | COpcode::ADDI | COpcode::ADDIW | COpcode::ADDI16SP | COpcode::LUI => {",
   "                InstFormat::CiFormat",
   "            }",
   "            COpcode::NOP => InstFormat::NoOperand,",
   "            COpcode::SUB",
   "            | COpcode::XOR",
   "            | COpcode::OR",
   "            | COpcode::AND",
   "            | COpcode::SUBW",
   "            | COpcode::ADDW => InstFormat::CaFormat,",
   "",
   "            // Quadrant 2",
   "            COpcode::LDSP | COpcode::SLLI | COpcode::LWSP => InstFormat::CiFormat,",
   "            COpcode::SDSP | COpcode::SWSP => InstFormat::CssFormat,",
   "            COpcode::JR | COpcode::JALR | COpcode::MV | COpcode::ADD => InstFormat::CrFormat,",
   "            COpcode::EBREAK => InstFormat::NoOperand,",
   "        }",
   "    }",
   "}"]

/-- src/instruction/m_extension.rs:1-65; the whole file. -/
def instruction_m_extension_rs : List String :=
  ["//! M extension Instruction.",
   "",
   "use super::{InstFormat, Opcode};",
   "use core::fmt::{self, Display, Formatter};",
   "",
   "/// Insturctions in M Extension.",
   "#[allow(non_camel_case_types, clippy::upper_case_acronyms)]",
   "#[derive(Debug, PartialEq)]",
   "pub enum MOpcode {",
   "    MUL,",
   "    MULH,",
   "    MULHSU,",
   "    MULHU,",
   "    DIV,",
   "    DIVU,",
   "    REM,",
   "    REMU,",
   "",
   "    //-- rv64 only --",
   "    MULW,",
   "    DIVW,",
   "    DIVUW,",
   "    REMW,",
   "    REMUW,",
   "}",
   "",
   "impl Display for MOpcode {",
   "    fn fmt(&self, f: &mut Formatter) -> fmt::Result {",
   "        match self {",
   "            MOpcode::MUL => write!(f, \"mul\"),",
   "            MOpcode::MULH => write!(f, \"mulh\"),",
   "            MOpcode::MULHSU => write!(f, \"mulhsu,\"),",
   "            MOpcode::MULHU => write!(f, \"mulhu\"),",
   "            MOpcode::DIV => write!(f, \"div\"),",
   "            MOpcode::DIVU => write!(f, \"divu\"),",
   "            MOpcode::REM => write!(f, \"rem\"),",
   "            MOpcode::REMU => write!(f, \"remu\"),",
   "            MOpcode::MULW => write!(f, \"mulw\"),",
   "            MOpcode::DIVW => write!(f, \"divw\"),",
   "            MOpcode::DIVUW => write!(f, \"divuw\"),",
   "            MOpcode::REMW => write!(f, \"remw\"),",
   "            MOpcode::REMUW => write!(f, \"remuw\"),",
   "        }",
   "    }",
   "}",
   "",
   "impl Opcode for MOpcode {",
   "    fn get_format(&self) -> InstFormat {",
   "        match self {",
   "            MOpcode::MUL",
   "            | MOpcode::MULH",
   "            | MOpcode::MULHSU",
   "            | MOpcode::MULHU",
   "            | MOpcode::DIV",
   "            | MOpcode::DIVU",
   "            | MOpcode::REM",
   "            | MOpcode::REMU",
   "            | MOpcode::MULW",
   "            | MOpcode::DIVW",
   "            | MOpcode::DIVUW",
   "            | MOpcode::REMW",
   "            | MOpcode::REMUW => InstFormat::MFormat,",
   "        }",
   "    }",
   "}"]

/-- src/instruction/priv_extension.rs:1-34; the whole file. -/
def instruction_priv_extension_rs : List String :=
  ["//! Privileged Instruction.",
   "",
   "use super::{InstFormat, Opcode};",
   "use core::fmt::{self, Display, Formatter};",
   "",
   "/// Privileged Insturctions.",
   "#[allow(non_camel_case_types)]",
   "#[derive(Debug, PartialEq)]",
   "pub enum PrivOpcode {",
   "    MRET,",
   "    SRET,",
   "    WFI,",
   "    SFENCE_VMA,",
   "}",
   "",
   "impl Display for PrivOpcode {",
   "    fn fmt(&self, f: &mut Formatter) -> fmt::Result {",
   "        match self {",
   "            PrivOpcode::SRET => write!(f, \"sret\"),",
   "            PrivOpcode::MRET => write!(f, \"mret\"),",
   "            PrivOpcode::WFI => write!(f, \"wfi\"),",
   "            PrivOpcode::SFENCE_VMA => write!(f, \"sfence.vma\"),",
   "        }",
   "    }",
   "}",
   "",
   "impl Opcode for PrivOpcode {",
   "    fn get_format(&self) -> InstFormat {",
   "        match self {",
   "            PrivOpcode::SRET | PrivOpcode::MRET | PrivOpcode::WFI => InstFormat::NoOperand,",
   "            PrivOpcode::SFENCE_VMA => InstFormat::RFormat,",
   "        }",
   "    }",
   "}"]

/-- src/instruction/zicboz_extension.rs:1-29; the whole file. -/
def instruction_zicboz_extension_rs : List String :=
  ["//! Zicboz extension Instruction.",
   "//!",
   "//! The RISC-V Instruction Set Manual Volume I p.108 19.7.4 cbo.zero",
   "",
   "use super::{InstFormat, Opcode};",
   "use core::fmt::{self, Display, Formatter};",
   "",
   "/// Insturctions in Zicboz Extension.",
   "#[allow(non_camel_case_types, clippy::upper_case_acronyms)]",
   "#[derive(Debug, PartialEq)]",
   "pub enum ZicbozOpcode {",
   "    CBO_ZERO,",
   "}",
   "",
   "impl Display for ZicbozOpcode {",
   "    fn fmt(&self, f: &mut Formatter) -> fmt::Result {",
   "        match self {",
   "            ZicbozOpcode::CBO_ZERO => write!(f, \"cbo.zero\"),",
   "        }",
   "    }",
   "}",
   "",
   "impl Opcode for ZicbozOpcode {",
   "    fn get_format(&self) -> InstFormat {",
   "        match self {",
   "            ZicbozOpcode::CBO_ZERO => InstFormat::OnlyRs1,",
   "        }",
   "    }",
   "}"]

/-- src/instruction/zicfiss_extension.rs:1-50; the whole file. -/
def instruction_zicfiss_extension_rs : List String :=
  ["//! Zicfiss extension Instruction.",
   "",
   "use super::{InstFormat, Opcode};",
   "use core::fmt::{self, Display, Formatter};",
   "",
   "/// Insturctions in Zicntr Extension.",
   "#[allow(non_camel_case_types, clippy::upper_case_acronyms)]",
   "#[derive(Debug, PartialEq)]",
   "pub enum ZicfissOpcode {",
   "    /// Shadow stack push.",
   "    SSPUSH,",
   "    /// Shadow stack push (compressed).",
   "    C_SSPUSH,",
   "    /// Shadow stack pop and check.",
   "    SSPOPCHK,",
   "    /// Shadow stack pop and check (compressed).",
   "    C_SSPOPCHK,",
   "    /// Shadow stack read pointer.",
   "    SSRDP,",
   "    /// Shadow stack AMO swap (word).",
   "    SSAMOSWAP_W,",
   "    /// Shadow stack AMO swap (double word).",
   "    SSAMOSWAP_D,",
   "}",
   "",
   "impl Display for ZicfissOpcode {",
   "    fn fmt(&self, f: &mut Formatter) -> fmt::Result {",
   "        match self {",
   "            ZicfissOpcode::SSPUSH => write!(f, \"sspush\"),",
   "            ZicfissOpcode::C_SSPUSH => write!(f, \"c.sspush\"),",
   "            ZicfissOpcode::SSPOPCHK => write!(f, \"sspopchk\"),",
   "            ZicfissOpcode::C_SSPOPCHK => write!(f, \"c.sspopchk\"),",
   "            ZicfissOpcode::SSRDP => write!(f, \"ssrdp\"),",
   "            ZicfissOpcode::SSAMOSWAP_W => write!(f, \"ssamoswap.w\"),",
   "            ZicfissOpcode::SSAMOSWAP_D => write!(f, \"ssamoswap.d\"),",
   "        }",
   "    }",
   "}",
   "",
   "impl Opcode for ZicfissOpcode {",
   "    fn get_format(&self) -> InstFormat {",
   "        match self {",
   "            ZicfissOpcode::SSPUSH => InstFormat::OnlyRs1,",
   "            ZicfissOpcode::SSPOPCHK => InstFormat::OnlyRs2,",
   "            ZicfissOpcode::SSRDP => InstFormat::OnlyRd,",
   "            ZicfissOpcode::SSAMOSWAP_W | ZicfissOpcode::SSAMOSWAP_D => InstFormat::AFormat,",
   "            ZicfissOpcode::C_SSPUSH | ZicfissOpcode::C_SSPOPCHK => InstFormat::NoOperand,",
   "        }",
   "    }",
   "}"]

/-- src/instruction/zicntr_extension.rs:1-47; the whole file. -/
def instruction_zicntr_extension_rs : List String :=
  ["//! Zicntr extension Instruction.",
   "",
   "use super::{InstFormat, Opcode};",
   "use core::fmt::{self, Display, Formatter};",
   "",
   "/// Insturctions in Zicntr Extension.",
   "#[allow(non_camel_case_types, clippy::upper_case_acronyms)]",
   "#[derive(Debug, PartialEq)]",
   "pub enum ZicntrOpcode {",
   "    // For Rv32, these instructions indicate lower 32 bits.",
   "    // For Rv64, these instructions do not exist.",
   "    RDCYCLE_H,",
   "    RDTIME_H,",
   "    RDINSTRET_H,",
   "",
   "    // For Rv32, these instructions indicate upper 32 bits.",
   "    // For Rv64, these instructions can access the full 64-bit CSRs directly.",
   "    RDCYCLE,",
   "    RDTIME,",
   "    RDINSTRET,",
   "}",
   "",
   "impl Display for ZicntrOpcode {",
   "    fn fmt(&self, f: &mut Formatter) -> fmt::Result {",
   "        match self {",
   "            ZicntrOpcode::RDCYCLE_H => write!(f, \"rdcycleh\"),",
   "            ZicntrOpcode::RDTIME_H => write!(f, \"rdtimeh\"),",
   "            ZicntrOpcode::RDINSTRET_H => write!(f, \"rdinstreth\"),",
   "            ZicntrOpcode::RDCYCLE => write!(f, \"rdcycle\"),",
   "            ZicntrOpcode::RDTIME => write!(f, \"rdtime\"),",
   "            ZicntrOpcode::RDINSTRET => write!(f, \"rdinstret\"),",
   "        }",
   "    }",
   "}",
   "",
   "impl Opcode for ZicntrOpcode {",
   "    fn get_format(&self) -> InstFormat {",
   "        match self {",
   "            ZicntrOpcode::RDCYCLE_H",
   "            | ZicntrOpcode::RDTIME_H",
   "            | ZicntrOpcode::RDINSTRET_H",
   "            | ZicntrOpcode::RDCYCLE",
   "            | ZicntrOpcode::RDTIME",
   "            | ZicntrOpcode::RDINSTRET => InstFormat::OnlyRd,",
   "        }",
   "    }",
   "}"]

/-- src/instruction/zicsr_extension.rs:1-40; the whole file. -/
def instruction_zicsr_extension_rs : List String :=
  ["//! Zicsr extension Instruction.",
   "",
   "use super::{InstFormat, Opcode};",
   "use core::fmt::{self, Display, Formatter};",
   "",
   "/// Insturctions in Zicsr Extension.",
   "#[allow(non_camel_case_types)]",
   "#[derive(Debug, PartialEq)]",
   "pub enum ZicsrOpcode {",
   "    CSRRW,",
   "    CSRRS,",
   "    CSRRC,",
   "    CSRRWI,",
   "    CSRRSI,",
   "    CSRRCI,",
   "}",
   "",
   "impl Display for ZicsrOpcode {",
   "    fn fmt(&self, f: &mut Formatter) -> fmt::Result {",
   "        match self {",
   "            ZicsrOpcode::CSRRW => write!(f, \"csrrw\"),",
   "            ZicsrOpcode::CSRRS => write!(f, \"csrrs\"),",
   "            ZicsrOpcode::CSRRC => write!(f, \"csrrc\"),",
   "            ZicsrOpcode::CSRRWI => write!(f, \"csrrwi\"),",
   "            ZicsrOpcode::CSRRSI => write!(f, \"csrrsi\"),",
   "            ZicsrOpcode::CSRRCI => write!(f, \"csrrci\"),",
   "        }",
   "    }",
   "}",
   "",
   "impl Opcode for ZicsrOpcode {",
   "    fn get_format(&self) -> InstFormat {",
   "        match self {",
   "            ZicsrOpcode::CSRRW | ZicsrOpcode::CSRRS | ZicsrOpcode::CSRRC => InstFormat::CsrFormat,",
   "            ZicsrOpcode::CSRRWI | ZicsrOpcode::CSRRSI | ZicsrOpcode::CSRRCI => {",
   "                InstFormat::CsrUiFormat",
   "            }",
   "        }",
   "    }",
   "}"]

/-- src/instruction/zifencei_extension.rs:1-27; the whole file. -/
def instruction_zifencei_extension_rs : List String :=
  ["//! Zicsr extension Instruction.",
   "",
   "use super::{InstFormat, Opcode};",
   "use core::fmt::{self, Display, Formatter};",
   "",
   "/// Insturctions in Zifencei Extension.",
   "#[allow(non_camel_case_types)]",
   "#[derive(Debug, PartialEq)]",
   "pub enum ZifenceiOpcode {",
   "    FENCE,",
   "}",
   "",
   "impl Display for ZifenceiOpcode {",
   "    fn fmt(&self, f: &mut Formatter) -> fmt::Result {",
   "        match self {",
   "            ZifenceiOpcode::FENCE => write!(f, \"fence.i\"),",
   "        }",
   "    }",
   "}",
   "",
   "impl Opcode for ZifenceiOpcode {",
   "    fn get_format(&self) -> InstFormat {",
   "        match self {",
   "            ZifenceiOpcode::FENCE => InstFormat::NoOperand,",
   "        }",
   "    }",
   "}"]

/-- src/decode/inst_16.rs:1-208; the whole file. -/
def decode_inst_16_rs : List String :=
  ["use super::{c_extension, zicfiss_extension};",
   "use super::{Decode, DecodeUtil, DecodingError};",
   "",
   "use crate::instruction::{InstFormat, Instruction, OpcodeKind};",
   "use crate::{Extensions, Isa};",
   "",
   "impl Decode for u16 {",
   "    fn decode(&self, isa: Isa) -> Result<Instruction, DecodingError> {",
   "        if *self == 0 {",
   "            return Err(DecodingError::IllegalInstruction);",
   "        }",
   "",
   "        let new_opc = self.parse_opcode(isa)?;",
   "        let new_rd: Option<usize> = self.parse_rd(&new_opc)?;",
   "        let new_rs1: Option<usize> = self.parse_rs1(&new_opc)?;",
   "        let new_rs2: Option<usize> = self.parse_rs2(&new_opc)?;",
   "        let new_imm: Option<i32> = self.parse_imm(&new_opc, isa)?;",
   "        let new_fmt: InstFormat = new_opc.get_format();",
   "",
   "        Ok(Instruction {",
   "            opc: new_opc,",
   "            rd: new_rd,",
   "            rs1: new_rs1,",
   "            rs2: new_rs2,",
   "            imm: new_imm,",
   "            inst_format: new_fmt,",
   "            is_compressed: true,",
   "        })",
   "    }",
   "",
   "    fn parse_opcode(self, isa: Isa) -> Result<OpcodeKind, DecodingError> {",
   "        let extension = self.parse_extension();",
   "",
   "        match extension {",
   "            Ok(Extensions::C) => Ok(OpcodeKind::C(c_extension::bit_16::parse_opcode(self, isa)?)),",
   "            Ok(Extensions::Zicfiss) => Ok(OpcodeKind::Zicfiss(",
   "                zicfiss_extension::bit_16::parse_opcode(self, isa)?,",
   "            )),",
   "            _ => Err(DecodingError::Not16BitInst),",
   "        }",
   "    }",
   "",
   "    fn parse_rd(self, opkind: &OpcodeKind) -> Result<Option<usize>, DecodingError> {",
   "        match opkind {",
   "            OpcodeKind::C(opc) => Ok(c_extension::bit_16::parse_rd(self, opc)),",
   "            OpcodeKind::Zicfiss(opc) => Ok(zicfiss_extension::bit_16::parse_rd(self, opc)),",
   "            _ => Err(DecodingError::Not16BitInst),",
   "        }",
   "    }",
   "",
   "    fn parse_rs1(self, opkind: &OpcodeKind) -> Result<Option<usize>, DecodingError> {",
   "        match opkind {",
   "            OpcodeKind::C(opc) => Ok(c_extension::bit_16::parse_rs1(self, opc)),",
   "            OpcodeKind::Zicfiss(opc) => Ok(zicfiss_extension::bit_16::parse_rs1(self, opc)),",
   "            _ => Err(DecodingError::Not16BitInst),",
   "        }",
   "    }",
   "",
   "    fn parse_rs2(self, opkind: &OpcodeKind) -> Result<Option<usize>, DecodingError> {",
   "        match opkind {",
   "            OpcodeKind::C(opc) => Ok(c_extension::bit_16::parse_rs2(self, opc)),",
   "            OpcodeKind::Zicfiss(opc) => Ok(zicfiss_extension::bit_16::parse_rs2(self, opc)),",
   "            _ => Err(DecodingError::Not16BitInst),",
   "        }",
   "    }",
   "",
   "    fn parse_imm(self, opkind: &OpcodeKind, _isa: Isa) -> Result<Option<i32>, DecodingError> {",
   "        match opkind {",
   "            OpcodeKind::C(opc) => Ok(c_extension::bit_16::parse_imm(self, opc)),",
   "            OpcodeKind::Zicfiss(opc) => Ok(zicfiss_extension::bit_16::parse_imm(self, opc)),",
   "            _ => Err(DecodingError::Not16BitInst),",
   "        }",
   "    }",
   "}",
   "",
   "impl DecodeUtil for u16 {",
   "    fn slice(self, end: u32, start: u32) -> Self {",
   "        assert!(end >= start);",
   "        (self >> start) & (2_u16.pow(end - start + 1) - 1)",
   "    }",
   "",
   "    fn parse_extension(self) -> Result<Extensions, DecodingError> {",
   "        match self {",
   "            0b0110_0000_1000_0001 | 0b0110_0010_1000_0001 => Ok(Extensions::Zicfiss),",
   "            _ => Ok(Extensions::C),",
   "        }",
   "    }",
   "",
   "    fn set(self, mask: &[u32]) -> u32 {",
   "        let mut inst: u32 = 0;",
   "        for (i, m) in mask.iter().rev().enumerate() {",
   "            inst |= ((u32::from(self) >> i) & 0x1) << m;",
   "        }",
   "",
   "        inst",
   "    }",
   "}",
   "",
   "#[cfg(test)]",
   "pub fn test_16(",
   "    isa: Isa,",
   "    location: &std::panic::Location,",
   "    inst_16: u16,",
   "    op: OpcodeKind,",
   "    rd: Option<usize>,",
   "    rs1: Option<usize>,",
   "    rs2: Option<usize>,",
   "    imm: Option<i32>,",
   ") {",
   "    let op_16 = inst_16.parse_opcode(isa).unwrap_or_else(|e| {",
   "        panic!(",
   "            \"{e:?}: failed to decode {inst_16:016b} ({}: line {})\",",
   "            location.file(),",
   "            location.line()",
   "        );",
   "    });",
   "    assert_eq!(",
   "        op_16,",
   "        op,",
   "        \"Opecode does not match: {op_16} != {op} ({}: line {})\",",
   "        location.file(),",
   "        location.line()",
   "    );",
   "    assert_eq!(",
   "        inst_16.parse_rd(&op_16).unwrap_or_else(|e| {",
   "            panic!(",
   "                \"{e:?}: failed to parse rd in {op}({inst_16:016b}) ({}: line {})\",",
   "                location.file(),",
   "                location.line()",
   "            );",
   "        }),",
   "        rd,",
   "        \"rd does not match: {:x?} != {rd:x?} ({}: line {})\",",
   "        inst_16.parse_rd(&op_16),",
   "        location.file(),",
   "        location.line()",
   "    );",
   "    assert_eq!(",
   "        inst_16.parse_rs1(&op_16).unwrap_or_else(|e| {",
   "            panic!(",
   "                \"{e:?}: failed to parse rs1 in {op}({inst_16:016b}) ({}: line {})\",",
   "                location.file(),",
   "                location.line()",
   "            );",
   "        }),",
   "        rs1,",
   "        \"rs1 does not match: {:x?} != {rs1:x?} ({}: line {})\",",
   "        inst_16.parse_rs1(&op_16),",
   "        location.file(),",
   "        location.line()",
   "    );",
   "    assert_eq!(",
   "        inst_16.parse_rs2(&op_16).unwrap_or_else(|e| {",
   "            panic!(",
   "                \"{e:?}: failed to parse rs2 in {op}({inst_16:016b}) ({}: line {})\",",
   "                location.file(),",
   "                location.line()",
   "            );",
   "        }),",
   "        rs2,",
   "        \"rs2 does not match: {:x?} != {rs2:x?} ({}: line {})\",",
   "        inst_16.parse_rs2(&op_16),",
   "        location.file(),",
   "        location.line()",
   "    );",
   "    assert_eq!(",
   "        inst_16.parse_imm(&op_16, isa).unwrap_or_else(|e| {",
   "            panic!(",
   "                \"{e:?}: failed to parse imm in {op}({inst_16:016b}) ({}: line {})\",",
   "                location.file(),",
   "                location.line()",
   "            );",
   "        }),",
   "        imm,",
   "        \"imm does not match: {:x?} != {imm:x?} ({}: line {})\",",
   "        inst_16.parse_imm(&op_16, isa),",
   "        location.file(),",
   "        location.line()",
   "    );",
   "}",
   "#[cfg(test)]",
   "#[track_caller]",
   "#[allow(dead_code)]",
   "pub fn test_16_in_rv32(",
   "    inst_16: u16,",
   "    op: OpcodeKind,",
   "    rd: Option<usize>,",
   "    rs1: Option<usize>,",
   "    rs2: Option<usize>,",
   "    imm: Option<i32>,",
   ") {",
   "    let location = std::panic::Location::caller();",
   "    test_16(Isa::Rv32, location, inst_16, op, rd, rs1, rs2, imm);",
   "}",
   "",
   "#[cfg(test)]",
   "#[track_caller]",
   "pub fn test_16_in_rv64(",
   "    inst_16: u16,",
   "    op: OpcodeKind,",
   "    rd: Option<usize>,",
   "    rs1: Option<usize>,",
   "    rs2: Option<usize>,",
   "    imm: Option<i32>,",
   ") {",
   "    let location = std::panic::Location::caller();",
   "    test_16(Isa::Rv64, location, inst_16, op, rd, rs1, rs2, imm);",
   "}"]

/-- src/decode/inst_32.rs:1-294; the whole file. -/
def decode_inst_32_rs : List String :=
  ["use super::{",
   "    a_extension, base_i, m_extension, priv_extension, zicboz_extension, zicfiss_extension,",
   "    zicntr_extension, zicsr_extension, zifencei_extension,",
   "};",
   "use super::{Decode, DecodeUtil, DecodingError};",
   "use crate::instruction::{InstFormat, Instruction, OpcodeKind};",
   "use crate::{Extensions, Isa};",
   "",
   "#[allow(non_snake_case)]",
   "impl Decode for u32 {",
   "    fn decode(&self, isa: Isa) -> Result<Instruction, DecodingError> {",
   "        let new_opc: OpcodeKind = self.parse_opcode(isa)?;",
   "        let new_rd: Option<usize> = self.parse_rd(&new_opc)?;",
   "        let new_rs1: Option<usize> = self.parse_rs1(&new_opc)?;",
   "        let new_rs2: Option<usize> = self.parse_rs2(&new_opc)?;",
   "        let new_imm: Option<i32> = self.parse_imm(&new_opc, isa)?;",
   "        let new_fmt: InstFormat = new_opc.get_format();",
   "",
   "        Ok(Instruction {",
   "            opc: new_opc,",
   "            rd: new_rd,",
   "            rs1: new_rs1,",
   "            rs2: new_rs2,",
   "            imm: new_imm,",
   "            inst_format: new_fmt,",
   "            is_compressed: false,",
   "        })",
   "    }",
   "",
   "    fn parse_opcode(self, isa: Isa) -> Result<OpcodeKind, DecodingError> {",
   "        let extension = self.parse_extension();",
   "",
   "        match extension {",
   "            Ok(Extensions::BaseI) => {",
   "                Ok(OpcodeKind::BaseI(base_i::bit_32::parse_opcode(self, isa)?))",
   "            }",
   "            Ok(Extensions::M) => Ok(OpcodeKind::M(m_extension::bit_32::parse_opcode(self, isa)?)),",
   "            Ok(Extensions::A) => Ok(OpcodeKind::A(a_extension::bit_32::parse_opcode(self, isa)?)),",
   "            Ok(Extensions::Zifencei) => Ok(OpcodeKind::Zifencei(",
   "                zifencei_extension::bit_32::parse_opcode(self)?,",
   "            )),",
   "            Ok(Extensions::Zicsr) => Ok(OpcodeKind::Zicsr(zicsr_extension::bit_32::parse_opcode(",
   "                self,",
   "            )?)),",
   "            Ok(Extensions::Zicfiss) => Ok(OpcodeKind::Zicfiss(",
   "                zicfiss_extension::bit_32::parse_opcode(self)?,",
   "            )),",
   "            Ok(Extensions::Zicntr) => Ok(OpcodeKind::Zicntr(",
   "                zicntr_extension::bit_32::parse_opcode(self)?,",
   "            )),",
   "            Ok(Extensions::Zicboz) => Ok(OpcodeKind::Zicboz(",
   "                zicboz_extension::bit_32::parse_opcode(self)?,",
   "            )),",
   "            Ok(Extensions::Priv) => Ok(OpcodeKind::Priv(priv_extension::bit_32::parse_opcode(",
   "                self,",
   "            )?)),",
   "            Ok(Extensions::C) => Err(DecodingError::Not32BitInst),",
   "            Err(decoding_err) => Err(decoding_err),",
   "        }",
   "    }",
   "",
   "    fn parse_rd(self, opkind: &OpcodeKind) -> Result<Option<usize>, DecodingError> {",
   "        match opkind {",
   "            OpcodeKind::BaseI(opc) => Ok(base_i::bit_32::parse_rd(self, opc)),",
   "            OpcodeKind::M(opc) => Ok(m_extension::bit_32::parse_rd(self, opc)),",
   "            OpcodeKind::A(opc) => Ok(a_extension::bit_32::parse_rd(self, opc)),",
   "            OpcodeKind::Zifencei(opc) => Ok(zifencei_extension::bit_32::parse_rd(self, opc)),",
   "            OpcodeKind::Zicsr(opc) => Ok(zicsr_extension::bit_32::parse_rd(self, opc)),",
   "            OpcodeKind::Zicfiss(opc) => Ok(zicfiss_extension::bit_32::parse_rd(self, opc)),",
   "            OpcodeKind::Zicntr(opc) => Ok(zicntr_extension::bit_32::parse_rd(self, opc)),",
   "            OpcodeKind::Zicboz(opc) => Ok(zicboz_extension::bit_32::parse_rd(self, opc)),",
   "            OpcodeKind::Priv(opc) => Ok(priv_extension::bit_32::parse_rd(self, opc)),",
   "            OpcodeKind::C(_) => Err(DecodingError::Not32BitInst),",
   "        }",
   "    }",
   "",
   "    fn parse_rs1(self, opkind: &OpcodeKind) -> Result<Option<usize>, DecodingError> {",
   "        match opkind {",
   "            OpcodeKind::BaseI(opc) => Ok(base_i::bit_32::parse_rs1(self, opc)),",
   "            OpcodeKind::M(opc) => Ok(m_extension::bit_32::parse_rs1(self, opc)),",
   "            OpcodeKind::A(opc) => Ok(a_extension::bit_32::parse_rs1(self, opc)),",
   "            OpcodeKind::Zifencei(opc) => Ok(zifencei_extension::bit_32::parse_rs1(self, opc)),",
   "            OpcodeKind::Zicsr(opc) => Ok(zicsr_extension::bit_32::parse_rs1(self, opc)),",
   "            OpcodeKind::Zicfiss(opc) => Ok(zicfiss_extension::bit_32::parse_rs1(self, opc)),",
   "            OpcodeKind::Zicntr(opc) => Ok(zicntr_extension::bit_32::parse_rs1(self, opc)),",
   "            OpcodeKind::Zicboz(opc) => Ok(zicboz_extension::bit_32::parse_rs1(self, opc)),",
   "            OpcodeKind::Priv(opc) => Ok(priv_extension::bit_32::parse_rs1(self, opc)),",
   "            OpcodeKind::C(_) => Err(DecodingError::Not32BitInst),",
   "        }",
   "    }",
   "",
   "    fn parse_rs2(self, opkind: &OpcodeKind) -> Result<Option<usize>, DecodingError> {",
   "        match opkind {",
   "            OpcodeKind::BaseI(opc) => Ok(base_i::bit_32::parse_rs2(self, opc)),",
   "            OpcodeKind::M(opc) => Ok(m_extension::bit_32::parse_rs2(self, opc)),",
   "            OpcodeKind::A(opc) => Ok(a_extension::bit_32::parse_rs2(self, opc)),",
   "            OpcodeKind::Zifencei(opc) => Ok(zifencei_extension::bit_32::parse_rs2(self, opc)),",
   "            OpcodeKind::Zicsr(opc) => Ok(zicsr_extension::bit_32::parse_rs2(self, opc)),",
   "            OpcodeKind::Zicfiss(opc) => Ok(zicfiss_extension::bit_32::parse_rs2(self, opc)),",
   "            OpcodeKind::Zicntr(opc) => Ok(zicntr_extension::bit_32::parse_rs2(self, opc)),",
   "            OpcodeKind::Zicboz(opc) => Ok(zicboz_extension::bit_32::parse_rs2(self, opc)),",
   "            OpcodeKind::Priv(opc) => Ok(priv_extension::bit_32::parse_rs2(self, opc)),",
   "            OpcodeKind::C(_) => Err(DecodingError::Not32BitInst),",
   "        }",
   "    }",
   "",
   "    fn parse_imm(self, opkind: &OpcodeKind, isa: Isa) -> Result<Option<i32>, DecodingError> {",
   "        match opkind {",
   "            OpcodeKind::BaseI(opc) => Ok(base_i::bit_32::parse_imm(self, opc, isa)),",
   "            OpcodeKind::M(opc) => Ok(m_extension::bit_32::parse_imm(self, opc)),",
   "            OpcodeKind::A(opc) => Ok(a_extension::bit_32::parse_imm(self, opc)),",
   "            OpcodeKind::Zifencei(opc) => Ok(zifencei_extension::bit_32::parse_imm(self, opc)),",
   "            OpcodeKind::Zicsr(opc) => Ok(zicsr_extension::bit_32::parse_imm(self, opc)),",
   "            OpcodeKind::Zicfiss(opc) => Ok(zicfiss_extension::bit_32::parse_imm(self, opc)),",
   "            OpcodeKind::Zicntr(opc) => Ok(zicntr_extension::bit_32::parse_imm(self, opc)),",
   "            OpcodeKind::Zicboz(opc) => Ok(zicboz_extension::bit_32::parse_imm(self, opc)),",
   "            OpcodeKind::Priv(opc) => Ok(priv_extension::bit_32::parse_imm(self, opc)),",
   "            OpcodeKind::C(_) => Err(DecodingError::Not32BitInst),",
   "        }",
   "    }",
   "}",
   "",
   "impl DecodeUtil for u32 {",
   "    fn slice(self, end: u32, start: u32) -> Self {",
   "        assert!(end >= start);",
   "        (self >> start) & (2_u32.pow(end - start + 1) - 1)",
   "    }",
   "",
   "    fn parse_extension(self) -> Result<Extensions, DecodingError> {",
   "        let opmap: u8 = u8::try_from(self.slice(6, 0)).unwrap();",
   "        let funct3: u8 = u8::try_from(self.slice(14, 12)).unwrap();",
   "        let funct5: u8 = u8::try_from(self.slice(31, 27)).unwrap();",
   "        let funct7: u8 = u8::try_from(self.slice(31, 25)).unwrap();",
   "        let csr: u16 = u16::try_from(self.slice(31, 20)).unwrap();",
   "",
   "        match opmap {",
   "            0b000_1111 => match funct3 {",
   "                0b000 => Ok(Extensions::Zifencei),",
   "                0b010 => Ok(Extensions::Zicboz),",
   "                _ => Err(DecodingError::UnknownExtension),",
   "            },",
   "            0b010_1111 => match funct5 {",
   "                0b00000 | 0b00001 | 0b00010 | 0b00011 | 0b00100 | 0b01000 | 0b01100 | 0b10000",
   "                | 0b10100 | 0b11000 | 0b11100 => Ok(Extensions::A),",
   "                0b01001 => Ok(Extensions::Zicfiss),",
   "                _ => Err(DecodingError::UnknownExtension),",
   "            },",
   "            0b011_0011 => match funct7 {",
   "                0b000_0001 => Ok(Extensions::M),",
   "                _ => Ok(Extensions::BaseI),",
   "            },",
   "            0b011_1011 => match funct7 {",
   "                0b000_0000 | 0b010_0000 => Ok(Extensions::BaseI),",
   "                0b000_0001 => Ok(Extensions::M),",
   "                _ => Err(DecodingError::UnknownExtension),",
   "            },",
   "            0b111_0011 => match funct3 {",
   "                0b000 => match funct7 {",
   "                    0b000_0000 => Ok(Extensions::BaseI),",
   "                    _ => Ok(Extensions::Priv),",
   "                },",
   "                0b010 => match csr {",
   "                    // csrrs rd, (cycle|time|instret), zero",
   "                    0xc00..=0xc02 | 0xc80..=0xc82 => Ok(Extensions::Zicntr),",
   "                    _ => Ok(Extensions::Zicsr),",
   "                },",
   "                0b100 => Ok(Extensions::Zicfiss),",
   "                _ => Ok(Extensions::Zicsr),",
   "            },",
   "            _ => Ok(Extensions::BaseI),",
   "        }",
   "    }",
   "",
   "    fn set(self, mask: &[u32]) -> u32 {",
   "        let mut inst: u32 = 0;",
   "        for (i, m) in mask.iter().rev().enumerate() {",
   "            inst |= ((self >> i) & 0x1) << m;",
   "        }",
   "",
   "        inst",
   "    }",
   "}",
   "",
   "#[cfg(test)]",
   "pub fn test_32(",
   "    isa: Isa,",
   "    location: &std::panic::Location,",
   "    inst_32: u32,",
   "    op: OpcodeKind,",
   "    rd: Option<usize>,",
   "    rs1: Option<usize>,",
   "    rs2: Option<usize>,",
   "    imm: Option<i32>,",
   ") {",
   "    let op_32 = inst_32.parse_opcode(isa).unwrap_or_else(|e| {",
   "        panic!(",
   "            \"{e:?}: failed to decode {inst_32:032b} ({}: line {})\",",
   "            location.file(),",
   "            location.line()",
   "        );",
   "    });",
   "    assert_eq!(",
   "        op_32,",
   "        op,",
   "        \"Opecode does not match: {op_32} != {op} ({}: line {})\",",
   "        location.file(),",
   "        location.line()",
   "    );",
   "    assert_eq!(",
   "        inst_32.parse_rd(&op_32).unwrap_or_else(|e| {",
   "            panic!(",
   "                \"{e:?}: failed to parse rd in {op}({inst_32:032b}) ({}: line {})\",",
   "                location.file(),",
   "                location.line()",
   "            );",
   "        }),",
   "        rd,",
   "        \"rd does not match: {:x?} != {rd:x?} ({}: line {})\",",
   "        inst_32.parse_rd(&op_32),",
   "        location.file(),",
   "        location.line()",
   "    );",
   "    assert_eq!(",
   "        inst_32.parse_rs1(&op_32).unwrap_or_else(|e| {",
   "            panic!(",
   "                \"{e:?}: failed to parse rs1 in {op}({inst_32:032b}) ({}: line {})\",",
   "                location.file(),",
   "                location.line()",
   "            );",
   "        }),",
   "        rs1,",
   "        \"rs1 does not match: {:x?} != {rs1:x?} ({}: line {})\",",
   "        inst_32.parse_rs1(&op_32),",
   "        location.file(),",
   "        location.line()",
   "    );",
   "    assert_eq!(",
   "        inst_32.parse_rs2(&op_32).unwrap_or_else(|e| {",
   "            panic!(",
   "                \"{e:?}: failed to parse rs2 in {op}({inst_32:032b}) ({}: line {})\",",
   "                location.file(),",
   "                location.line()",
   "            );",
   "        }),",
   "        rs2,",
   "        \"rs2 does not match: {:x?} != {rs2:x?} ({}: line {})\",",
   "        inst_32.parse_rs2(&op_32),",
   "        location.file(),",
   "        location.line()",
   "    );",
   "    assert_eq!(",
   "        inst_32.parse_imm(&op_32, isa).unwrap_or_else(|e| {",
   "            panic!(",
   "                \"{e:?}: failed to parse imm in {op}({inst_32:032b}) ({}: line {})\",",
   "                location.file(),",
   "                location.line()",
   "            );",
   "        }),",
   "        imm,",
   "        \"imm does not match: {:x?} != {imm:x?} ({}: line {})\",",
   "        inst_32.parse_imm(&op_32, isa),",
   "        location.file(),",
   "        location.line()",
   "    );",
   "}",
   "",
   "#[cfg(test)]",
   "#[track_caller]",
   "#[allow(dead_code)]",
   "pub fn test_32_in_rv32(",
   "    inst_32: u32,",
   "    op: OpcodeKind,",
   "    rd: Option<usize>,",
   "    rs1: Option<usize>,",
   "    rs2: Option<usize>,",
   "    imm: Option<i32>,",
   ") {",
   "    let location = std::panic::Location::caller();",
   "    test_32(Isa::Rv32, location, inst_32, op, rd, rs1, rs2, imm);",
   "}",
   "",
   "#[cfg(test)]",
   "#[track_caller]",
   "pub fn test_32_in_rv64(",
   "    inst_32: u32,",
   "    op: OpcodeKind,",
   "    rd: Option<usize>,",
   "    rs1: Option<usize>,",
   "    rs2: Option<usize>,",
   "    imm: Option<i32>,",
   ") {",
   "    let location = std::panic::Location::caller();",
   "    test_32(Isa::Rv64, location, inst_32, op, rd, rs1, rs2, imm);",
   "}"]

/-- src/decode/a_extension.rs:1-202; the whole file. -/
def decode_a_extension_rs : List String :=
  ["pub mod bit_32 {",
   "    use super::super::{only_rv64, DecodeUtil, DecodingError};",
   "    use crate::instruction::a_extension::AOpcode;",
   "    use crate::Isa;",
   "",
   "    pub fn parse_opcode(inst: u32, isa: Isa) -> Result<AOpcode, DecodingError> {",
   "        let opmap: u8 = u8::try_from(inst.slice(6, 0)).unwrap();",
   "        let funct3: u8 = u8::try_from(inst.slice(14, 12)).unwrap();",
   "        let funct7: u8 = u8::try_from(inst.slice(31, 27)).unwrap();",
   "",
   "        match opmap {",
   "            0b010_1111 => match funct3 {",
   "                0b010 => match funct7 {",
   "                    0b00010 => Ok(AOpcode::LR_W),",
   "                    0b00011 => Ok(AOpcode::SC_W),",
   "                    0b00001 => Ok(AOpcode::AMOSWAP_W),",
   "                    0b00000 => Ok(AOpcode::AMOADD_W),",
   "                    0b00100 => Ok(AOpcode::AMOXOR_W),",
   "                    0b01100 => Ok(AOpcode::AMOAND_W),",
   "                    0b01000 => Ok(AOpcode::AMOOR_W),",
   "                    0b10000 => Ok(AOpcode::AMOMIN_W),",
   "                    0b10100 => Ok(AOpcode::AMOMAX_W),",
   "                    0b11000 => Ok(AOpcode::AMOMINU_W),",
   "                    0b11100 => Ok(AOpcode::AMOMAXU_W),",
   "                    _ => Err(DecodingError::InvalidFunct7),",
   "                },",
   "                0b011 => match funct7 {",
   "                    0b00010 => only_rv64(AOpcode::LR_D, isa),",
   "                    0b00011 => only_rv64(AOpcode::SC_D, isa),",
   "                    0b00001 => only_rv64(AOpcode::AMOSWAP_D, isa),",
   "                    0b00000 => only_rv64(AOpcode::AMOADD_D, isa),",
   "                    0b00100 => only_rv64(AOpcode::AMOXOR_D, isa),",
   "                    0b01100 => only_rv64(AOpcode::AMOAND_D, isa),",
   "                    0b01000 => only_rv64(AOpcode::AMOOR_D, isa),",
   "                    0b10000 => only_rv64(AOpcode::AMOMIN_D, isa),",
   "                    0b10100 => only_rv64(AOpcode::AMOMAX_D, isa),",
   "                    0b11000 => only_rv64(AOpcode::AMOMINU_D, isa),",
   "                    0b11100 => only_rv64(AOpcode::AMOMAXU_D, isa),",
   "                    _ => Err(DecodingError::InvalidFunct7),",
   "                },",
   "                _ => Err(DecodingError::InvalidFunct3),",
   "            },",
   "            _ => Err(DecodingError::InvalidOpcode),",
   "        }",
   "    }",
   "",
   "    #[allow(clippy::unnecessary_wraps)]",
   "    pub fn parse_rd(inst: u32, opkind: &AOpcode) -> Option<usize> {",
   "        let rd: usize = inst.slice(11, 7) as usize;",
   "",
   "        match opkind {",
   "            AOpcode::LR_W",
   "            | AOpcode::SC_W",
   "            | AOpcode::AMOSWAP_W",
   "            | AOpcode::AMOADD_W",
   "            | AOpcode::AMOXOR_W",
   "            | AOpcode::AMOAND_W",
   "            | AOpcode::AMOOR_W",
   "            | AOpcode::AMOMIN_W",
   "            | AOpcode::AMOMAX_W",
   "            | AOpcode::AMOMINU_W",
   "            | AOpcode::AMOMAXU_W",
   "            | AOpcode::LR_D",
   "            | AOpcode::SC_D",
   "            | AOpcode::AMOSWAP_D",
   "            | AOpcode::AMOADD_D",
   "            | AOpcode::AMOXOR_D",
   "            | AOpcode::AMOAND_D",
   "            | AOpcode::AMOOR_D",
   "            | AOpcode::AMOMIN_D",
   "            | AOpcode::AMOMAX_D",
   "            | AOpcode::AMOMINU_D",
   "            | AOpcode::AMOMAXU_D => Some(rd),",
   "        }",
   "    }",
   "",
   "    #[allow(clippy::unnecessary_wraps)]",
   "    pub fn parse_rs1(inst: u32, opkind: &AOpcode) -> Option<usize> {",
   "        let rs1: usize = inst.slice(19, 15) as usize;",
   "",
   "        match opkind {",
   "            AOpcode::LR_W",
   "            | AOpcode::SC_W",
   "            | AOpcode::AMOSWAP_W",
   "            | AOpcode::AMOADD_W",
   "            | AOpcode::AMOXOR_W",
   "            | AOpcode::AMOAND_W",
   "            | AOpcode::AMOOR_W",
   "            | AOpcode::AMOMIN_W",
   "            | AOpcode::AMOMAX_W",
   "            | AOpcode::AMOMINU_W",
   "            | AOpcode::AMOMAXU_W",
   "            | AOpcode::LR_D",
   "            | AOpcode::SC_D",
   "            | AOpcode::AMOSWAP_D",
   "            | AOpcode::AMOADD_D",
   "            | AOpcode::AMOXOR_D",
   "            | AOpcode::AMOAND_D",
   "            | AOpcode::AMOOR_D",
   "            | AOpcode::AMOMIN_D",
   "            | AOpcode::AMOMAX_D",
   "            | AOpcode::AMOMINU_D",
   "            | AOpcode::AMOMAXU_D => Some(rs1),",
   "        }",
   "    }",
   "",
   "    pub fn parse_rs2(inst: u32, opkind: &AOpcode) -> Option<usize> {",
   "        let rs2: usize = inst.slice(24, 20) as usize;",
   "",
   "        match opkind {",
   "            AOpcode::SC_W",
   "            | AOpcode::AMOSWAP_W",
   "            | AOpcode::AMOADD_W",
   "            | AOpcode::AMOXOR_W",
   "            | AOpcode::AMOAND_W",
   "            | AOpcode::AMOOR_W",
   "            | AOpcode::AMOMIN_W",
   "            | AOpcode::AMOMAX_W",
   "            | AOpcode::AMOMINU_W",
   "            | AOpcode::AMOMAXU_W",
   "            | AOpcode::SC_D",
   "            | AOpcode::AMOSWAP_D",
   "            | AOpcode::AMOADD_D",
   "            | AOpcode::AMOXOR_D",
   "            | AOpcode::AMOAND_D",
   "            | AOpcode::AMOOR_D",
   "            | AOpcode::AMOMIN_D",
   "            | AOpcode::AMOMAX_D",
   "            | AOpcode::AMOMINU_D",
   "            | AOpcode::AMOMAXU_D => Some(rs2),",
   "            _ => None,",
   "        }",
   "    }",
   "",
   "    #[allow(non_snake_case)]",
   "    #[allow(clippy::unnecessary_wraps, clippy::cast_possible_wrap)]",
   "    pub fn parse_imm(inst: u32, opkind: &AOpcode) -> Option<i32> {",
   "        let aq_and_rl = || inst.slice(26, 25) as i32;",
   "",
   "        match opkind {",
   "            AOpcode::LR_W",
   "            | AOpcode::SC_W",
   "            | AOpcode::AMOSWAP_W",
   "            | AOpcode::AMOADD_W",
   "            | AOpcode::AMOXOR_W",
   "            | AOpcode::AMOAND_W",
   "            | AOpcode::AMOOR_W",
   "            | AOpcode::AMOMIN_W",
   "            | AOpcode::AMOMAX_W",
   "            | AOpcode::AMOMINU_W",
   "            | AOpcode::AMOMAXU_W",
   "            | AOpcode::LR_D",
   "            | AOpcode::SC_D",
   "            | AOpcode::AMOSWAP_D",
   "            | AOpcode::AMOADD_D",
   "            | AOpcode::AMOXOR_D",
   "            | AOpcode::AMOAND_D",
   "            | AOpcode::AMOOR_D",
   "            | AOpcode::AMOMIN_D",
   "            | AOpcode::AMOMAX_D",
   "            | AOpcode::AMOMINU_D",
   "            | AOpcode::AMOMAXU_D => Some(aq_and_rl()),",
   "        }",
   "    }",
   "}",
   "",
   "#[cfg(test)]",
   "#[allow(unused_variables)]",
   "mod test_a {",
   "    #[test]",
   "    #[allow(overflowing_literals)]",
   "    fn a_decode_test() {",
   "        use crate::decode::inst_32::test_32_in_rv64;",
   "        use crate::instruction::a_extension::AOpcode;",
   "        use crate::OpcodeKind;",
   "",
   "        test_32_in_rv64(",
   "            0x04d7_27af,",
   "            OpcodeKind::A(AOpcode::AMOADD_W),",
   "            Some(15),",
   "            Some(14),",
   "            Some(13),",
   "            Some(2),",
   "        );",
   "        test_32_in_rv64(",
   "            0x1007b62f,",
   "            OpcodeKind::A(AOpcode::LR_D),",
   "            Some(12),",
   "            Some(15),",
   "            None,",
   "            Some(0),",
   "        );",
   "        test_32_in_rv64(",
   "            0x60f6302f,",
   "            OpcodeKind::A(AOpcode::AMOAND_D),",
   "            Some(0),",
   "            Some(12),",
   "            Some(15),",
   "            Some(0),",
   "        );",
   "    }",
   "}"]

/-- src/decode/base_i.rs:1-487; the whole file. -/
def decode_base_i_rs : List String :=
  ["pub mod bit_32 {",
   "    use super::super::{only_rv64, DecodeUtil, DecodingError};",
   "    use crate::instruction::base_i::BaseIOpcode;",
   "    use crate::Isa;",
   "",
   "    #[allow(clippy::too_many_lines)]",
   "    pub fn parse_opcode(inst: u32, isa: Isa) -> Result<BaseIOpcode, DecodingError> {",
   "        let opmap: u8 = u8::try_from(inst.slice(6, 0)).unwrap();",
   "        let funct3: u8 = u8::try_from(inst.slice(14, 12)).unwrap();",
   "        let funct5: u8 = u8::try_from(inst.slice(24, 20)).unwrap();",
   "        let funct6: u8 = u8::try_from(inst.slice(31, 26)).unwrap();",
   "        let funct7: u8 = u8::try_from(inst.slice(31, 25)).unwrap();",
   "",
   "        match opmap {",
   "            0b011_0111 => Ok(BaseIOpcode::LUI),",
   "            0b001_0111 => Ok(BaseIOpcode::AUIPC),",
   "            0b110_1111 => Ok(BaseIOpcode::JAL),",
   "            0b110_0111 => Ok(BaseIOpcode::JALR),",
   "            0b110_0011 => match funct3 {",
   "                0b000 => Ok(BaseIOpcode::BEQ),",
   "                0b001 => Ok(BaseIOpcode::BNE),",
   "                0b100 => Ok(BaseIOpcode::BLT),",
   "                0b101 => Ok(BaseIOpcode::BGE),",
   "                0b110 => Ok(BaseIOpcode::BLTU),",
   "                0b111 => Ok(BaseIOpcode::BGEU),",
   "                _ => Err(DecodingError::InvalidFunct3),",
   "            },",
   "            0b000_0011 => match funct3 {",
   "                0b000 => Ok(BaseIOpcode::LB),",
   "                0b001 => Ok(BaseIOpcode::LH),",
   "                0b010 => Ok(BaseIOpcode::LW),",
   "                0b011 => only_rv64(BaseIOpcode::LD, isa),",
   "                0b100 => Ok(BaseIOpcode::LBU),",
   "                0b101 => Ok(BaseIOpcode::LHU),",
   "                0b110 => only_rv64(BaseIOpcode::LWU, isa),",
   "                _ => Err(DecodingError::InvalidFunct3),",
   "            },",
   "            0b010_0011 => match funct3 {",
   "                0b000 => Ok(BaseIOpcode::SB),",
   "                0b001 => Ok(BaseIOpcode::SH),",
   "                0b010 => Ok(BaseIOpcode::SW),",
   "                0b011 => only_rv64(BaseIOpcode::SD, isa),",
   "                _ => Err(DecodingError::InvalidFunct3),",
   "            },",
   "            0b001_0011 => match funct3 {",
   "                0b000 => Ok(BaseIOpcode::ADDI),",
   "                0b001 => match isa {",
   "                    Isa::Rv32 => match funct7 {",
   "                        0b000_0000 => Ok(BaseIOpcode::SLLI),",
   "                        _ => Err(DecodingError::InvalidFunct7),",
   "                    },",
   "                    Isa::Rv64 => match funct6 {",
   "                        0b00_0000 => Ok(BaseIOpcode::SLLI),",
   "                        _ => Err(DecodingError::InvalidFunct6),",
   "                    },",
   "                },",
   "                0b010 => Ok(BaseIOpcode::SLTI),",
   "                0b011 => Ok(BaseIOpcode::SLTIU),",
   "                0b100 => Ok(BaseIOpcode::XORI),",
   "                0b101 => match isa {",
   "                    Isa::Rv32 => match funct7 {",
   "                        0b000_0000 => Ok(BaseIOpcode::SRLI),",
   "                        0b010_0000 => Ok(BaseIOpcode::SRAI),",
   "                        _ => Err(DecodingError::InvalidFunct7),",
   "                    },",
   "                    Isa::Rv64 => match funct6 {",
   "                        0b00_0000 => Ok(BaseIOpcode::SRLI),",
   "                        0b01_0000 => Ok(BaseIOpcode::SRAI),",
   "                        _ => Err(DecodingError::InvalidFunct6),",
   "                    },",
   "                },",
   "                0b110 => Ok(BaseIOpcode::ORI),",
   "                0b111 => Ok(BaseIOpcode::ANDI),",
   "                _ => Err(DecodingError::InvalidFunct3),",
   "            },",
   "            0b011_0011 => match funct3 {",
   "                0b000 => match funct7 {",
   "                    0b000_0000 => Ok(BaseIOpcode::ADD),",
   "                    0b010_0000 => Ok(BaseIOpcode::SUB),",
   "                    _ => Err(DecodingError::InvalidFunct7),",
   "                },",
   "                0b001 => Ok(BaseIOpcode::SLL),",
   "                0b010 => Ok(BaseIOpcode::SLT),",
   "                0b011 => Ok(BaseIOpcode::SLTU),",
   "                0b100 => Ok(BaseIOpcode::XOR),",
   "                0b101 => match funct7 {",
   "                    0b000_0000 => Ok(BaseIOpcode::SRL),",
   "                    0b010_0000 => Ok(BaseIOpcode::SRA),",
   "                    _ => Err(DecodingError::InvalidFunct7),",
   "                },",
   "                0b110 => Ok(BaseIOpcode::OR),",
   "                0b111 => Ok(BaseIOpcode::AND),",
   "                _ => Err(DecodingError::InvalidFunct3),",
   "            },",
   "            0b111_0011 => match funct3 {",
   "                0b000 => match funct7 {",
   "                    0b000_0000 => match funct5 {",
   "                        0b00000 => Ok(BaseIOpcode::ECALL),",
   "                        0b00001 => Ok(BaseIOpcode::EBREAK),",
   "                        _ => Err(DecodingError::InvalidFunct5),",
   "                    },",
   "                    _ => Err(DecodingError::InvalidFunct7),",
   "                },",
   "                _ => Err(DecodingError::InvalidFunct3),",
   "            },",
   "            0b001_1011 => match funct3 {",
   "                0b000 => only_rv64(BaseIOpcode::ADDIW, isa),",
   "                0b001 => only_rv64(BaseIOpcode::SLLIW, isa),",
   "                0b101 => match funct7 {",
   "                    0b000_0000 => only_rv64(BaseIOpcode::SRLIW, isa),",
   "                    0b010_0000 => only_rv64(BaseIOpcode::SRAIW, isa),",
   "                    _ => Err(DecodingError::InvalidFunct7),",
   "                },",
   "                _ => Err(DecodingError::InvalidFunct3),",
   "            },",
   "            0b011_1011 => match funct3 {",
   "                0b000 => match funct7 {",
   "                    0b000_0000 => only_rv64(BaseIOpcode::ADDW, isa),",
   "                    0b010_0000 => only_rv64(BaseIOpcode::SUBW, isa),",
   "                    _ => Err(DecodingError::InvalidFunct7),",
   "                },",
   "                0b001 => only_rv64(BaseIOpcode::SLLW, isa),",
   "                0b101 => match funct7 {",
   "                    0b000_0000 => only_rv64(BaseIOpcode::SRLW, isa),",
   "                    0b010_0000 => only_rv64(BaseIOpcode::SRAW, isa),",
   "                    _ => Err(DecodingError::InvalidFunct7),",
   "                },",
   "                _ => Err(DecodingError::InvalidFunct3),",
   "            },",
   "            _ => Err(DecodingError::InvalidOpcode),",
   "        }",
   "    }",
   "",
   "    pub fn parse_rd(inst: u32, opkind: &BaseIOpcode) -> Option<usize> {",
   "        let rd: usize = inst.slice(11, 7) as usize;",
   "",
   "        // B(EQ|NE|LT|GE|LTU|GEU), S(B|H|W), ECALL, EBREAK",
   "        match opkind {",
   "            BaseIOpcode::LUI",
   "            | BaseIOpcode::AUIPC",
   "            | BaseIOpcode::JAL",
   "            | BaseIOpcode::JALR",
   "            | BaseIOpcode::LB",
   "            | BaseIOpcode::LH",
   "            | BaseIOpcode::LW",
   "            | BaseIOpcode::LBU",
   "            | BaseIOpcode::LHU",
   "            | BaseIOpcode::ADDI",
   "            | BaseIOpcode::SLTI",
   "            | BaseIOpcode::SLTIU",
   "            | BaseIOpcode::XORI",
   "            | BaseIOpcode::ORI",
   "            | BaseIOpcode::ANDI",
   "            | BaseIOpcode::SLLI",
   "            | BaseIOpcode::SRLI",
   "            | BaseIOpcode::SRAI",
   "            | BaseIOpcode::ADD",
   "            | BaseIOpcode::SUB",
   "            | BaseIOpcode::SLL",
   "            | BaseIOpcode::SLT",
   "            | BaseIOpcode::SLTU",
   "            | BaseIOpcode::XOR",
   "            | BaseIOpcode::SRL",
   "            | BaseIOpcode::SRA",
   "            | BaseIOpcode::OR",
   "            | BaseIOpcode::AND",
   "            | BaseIOpcode::LWU",
   "            | BaseIOpcode::LD",
   "            | BaseIOpcode::ADDIW",
   "            | BaseIOpcode::SLLIW",
   "            | BaseIOpcode::SRLIW",
   "            | BaseIOpcode::SRAIW",
   "            | BaseIOpcode::ADDW",
   "            | BaseIOpcode::SUBW",
   "            | BaseIOpcode::SLLW",
   "            | BaseIOpcode::SRLW",
   "            | BaseIOpcode::SRAW => Some(rd),",
   "            _ => None,",
   "        }",
   "    }",
   "",
   "    pub fn parse_rs1(inst: u32, opkind: &BaseIOpcode) -> Option<usize> {",
   "        let rs1: usize = inst.slice(19, 15) as usize;",
   "",
   "        // LUI, AUIPC, JAL, FENCE, ECALL, EBREAK",
   "        match opkind {",
   "            BaseIOpcode::JALR",
   "            | BaseIOpcode::BEQ",
   "            | BaseIOpcode::BNE",
   "            | BaseIOpcode::BLT",
   "            | BaseIOpcode::BGE",
   "            | BaseIOpcode::BLTU",
   "            | BaseIOpcode::BGEU",
   "            | BaseIOpcode::LB",
   "            | BaseIOpcode::LH",
   "            | BaseIOpcode::LW",
   "            | BaseIOpcode::LBU",
   "            | BaseIOpcode::LHU",
   "            | BaseIOpcode::SB",
   "            | BaseIOpcode::SH",
   "            | BaseIOpcode::SW",
   "            | BaseIOpcode::ADDI",
   "            | BaseIOpcode::SLTI",
   "            | BaseIOpcode::SLTIU",
   "            | BaseIOpcode::XORI",
   "            | BaseIOpcode::ORI",
   "            | BaseIOpcode::ANDI",
   "            | BaseIOpcode::SLLI",
   "            | BaseIOpcode::SRLI",
   "            | BaseIOpcode::SRAI",
   "            | BaseIOpcode::ADD",
   "            | BaseIOpcode::SUB",
   "            | BaseIOpcode::SLL",
   "            | BaseIOpcode::SLT",
   "            | BaseIOpcode::SLTU",
   "            | BaseIOpcode::XOR",
   "            | BaseIOpcode::SRL",
   "            | BaseIOpcode::SRA",
   "            | BaseIOpcode::OR",
   "            | BaseIOpcode::AND",
   "            | BaseIOpcode::LWU",
   "            | BaseIOpcode::LD",
   "            | BaseIOpcode::SD",
   "            | BaseIOpcode::ADDIW",
   "            | BaseIOpcode::SLLIW",
   "            | BaseIOpcode::SRLIW",
   "            | BaseIOpcode::SRAIW",
   "            | BaseIOpcode::ADDW",
   "            | BaseIOpcode::SUBW",
   "            | BaseIOpcode::SLLW",
   "            | BaseIOpcode::SRLW",
   "            | BaseIOpcode::SRAW => Some(rs1),",
   "            _ => None,",
   "        }",
   "    }",
   "",
   "    pub fn parse_rs2(inst: u32, opkind: &BaseIOpcode) -> Option<usize> {",
   "        let rs2: usize = inst.slice(24, 20) as usize;",
   "",
   "        // LUI, AUIPC, JAL, JALR L(B|H|W|BU|HU),",
   "        // ADDI, SLTI, SLTIU, XORI, ORI, ANDI, SLLI,",
   "        // FENCE, ECALL, EBREAK",
   "        match opkind {",
   "            BaseIOpcode::BEQ",
   "            | BaseIOpcode::BNE",
   "            | BaseIOpcode::BLT",
   "            | BaseIOpcode::BGE",
   "            | BaseIOpcode::BLTU",
   "            | BaseIOpcode::BGEU",
   "            | BaseIOpcode::SB",
   "            | BaseIOpcode::SH",
   "            | BaseIOpcode::SW",
   "            | BaseIOpcode::ADD",
   "            | BaseIOpcode::SUB",
   "            | BaseIOpcode::SLL",
   "            | BaseIOpcode::SLT",
   "            | BaseIOpcode::SLTU",
   "            | BaseIOpcode::XOR",
   "            | BaseIOpcode::SRL",
   "            | BaseIOpcode::SRA",
   "            | BaseIOpcode::OR",
   "            | BaseIOpcode::AND",
   "            | BaseIOpcode::SD",
   "            | BaseIOpcode::ADDW",
   "            | BaseIOpcode::SUBW",
   "            | BaseIOpcode::SLLW",
   "            | BaseIOpcode::SRLW",
   "            | BaseIOpcode::SRAW => Some(rs2),",
   "            _ => None,",
   "        }",
   "    }",
   "",
   "    #[allow(clippy::cast_possible_wrap)]",
   "    #[allow(non_snake_case)]",
   "    pub fn parse_imm(inst: u32, opkind: &BaseIOpcode, isa: Isa) -> Option<i32> {",
   "        let U_type = || inst.slice(31, 12) as i32;",
   "        let I_type = || {",
   "            let imm32 = inst.slice(31, 20) as i32;",
   "            inst.to_signed_nbit(imm32, 12)",
   "        };",
   "        let S_type = || {",
   "            let imm32 = (inst.slice(11, 7).set(&[4, 3, 2, 1, 0])",
   "                | inst.slice(31, 25).set(&[11, 10, 9, 8, 7, 6, 5])) as i32;",
   "            inst.to_signed_nbit(imm32, 12)",
   "        };",
   "        let B_type = || {",
   "            let imm32 = (inst.slice(11, 7).set(&[4, 3, 2, 1, 11])",
   "                | inst.slice(31, 25).set(&[12, 10, 9, 8, 7, 6, 5])) as i32;",
   "            inst.to_signed_nbit(imm32, 13)",
   "        };",
   "        let J_type = || {",
   "            let imm32 = inst.slice(31, 12).set(&[",
   "                20, 10, 9, 8, 7, 6, 5, 4, 3, 2, 1, 11, 19, 18, 17, 16, 15, 14, 13, 12,",
   "            ]) as i32;",
   "            inst.to_signed_nbit(imm32, 21)",
   "        };",
   "        let shamt5 = || inst.slice(24, 20); // shamt = SHift AMounT",
   "        let shamt6 = || inst.slice(25, 20);",
   "",
   "        match opkind {",
   "            // u-type",
   "            BaseIOpcode::LUI | BaseIOpcode::AUIPC => Some(U_type()),",
   "            // j-type",
   "            BaseIOpcode::JAL => Some(J_type()),",
   "            // b-type",
   "            BaseIOpcode::BEQ",
   "            | BaseIOpcode::BNE",
   "            | BaseIOpcode::BLT",
   "            | BaseIOpcode::BGE",
   "            | BaseIOpcode::BLTU",
   "            | BaseIOpcode::BGEU => Some(B_type()),",
   "            // i-type",
   "            BaseIOpcode::JALR",
   "            | BaseIOpcode::LB",
   "            | BaseIOpcode::LH",
   "            | BaseIOpcode::LW",
   "            | BaseIOpcode::LBU",
   "            | BaseIOpcode::LHU",
   "            | BaseIOpcode::ADDI",
   "            | BaseIOpcode::SLTI",
   "            | BaseIOpcode::SLTIU",
   "            | BaseIOpcode::XORI",
   "            | BaseIOpcode::ORI",
   "            | BaseIOpcode::ANDI",
   "            | BaseIOpcode::LWU",
   "            | BaseIOpcode::ADDIW",
   "            | BaseIOpcode::LD => Some(I_type()),",
   "            // s-type",
   "            BaseIOpcode::SD | BaseIOpcode::SB | BaseIOpcode::SH | BaseIOpcode::SW => Some(S_type()),",
   "            BaseIOpcode::SRAI | BaseIOpcode::SLLI | BaseIOpcode::SRLI => match isa {",
   "                Isa::Rv32 => Some(shamt5() as i32), // shamt",
   "                Isa::Rv64 => Some(shamt6() as i32),",
   "            },",
   "            BaseIOpcode::SLLIW | BaseIOpcode::SRLIW | BaseIOpcode::SRAIW => Some(shamt5() as i32),",
   "            _ => None,",
   "        }",
   "    }",
   "}",
   "",
   "#[cfg(test)]",
   "#[allow(unused_variables)]",
   "mod test_basei {",
   "    #[test]",
   "    #[allow(overflowing_literals)]",
   "    fn basei_decode_test() {",
   "        use crate::decode::inst_32::test_32_in_rv64;",
   "        use crate::instruction::base_i::BaseIOpcode;",
   "        use crate::OpcodeKind;",
   "",
   "        test_32_in_rv64(",
   "            0xfdead737,",
   "            OpcodeKind::BaseI(BaseIOpcode::LUI),",
   "            Some(14),",
   "            None,",
   "            None,",
   "            Some(0xfdead),",
   "        );",
   "        test_32_in_rv64(",
   "            0x1597,",
   "            OpcodeKind::BaseI(BaseIOpcode::AUIPC),",
   "            Some(11),",
   "            None,",
   "            None,",
   "            Some(0x1),",
   "        );",
   "        test_32_in_rv64(",
   "            0x013f9517,",
   "            OpcodeKind::BaseI(BaseIOpcode::AUIPC),",
   "            Some(10),",
   "            None,",
   "            None,",
   "            Some(0x13f9),",
   "        );",
   "        test_32_in_rv64(",
   "            0x009bc097,",
   "            OpcodeKind::BaseI(BaseIOpcode::AUIPC),",
   "            Some(1),",
   "            None,",
   "            None,",
   "            Some(0x9bc),",
   "        );",
   "        test_32_in_rv64(",
   "            0x9d3ff0ef,",
   "            OpcodeKind::BaseI(BaseIOpcode::JAL),",
   "            Some(1),",
   "            None,",
   "            None,",
   "            Some(-1582),",
   "        );",
   "        test_32_in_rv64(",
   "            0x02e78263,",
   "            OpcodeKind::BaseI(BaseIOpcode::BEQ),",
   "            None,",
   "            Some(15),",
   "            Some(14),",
   "            Some(36),",
   "        );",
   "        test_32_in_rv64(",
   "            0b1111_1110_0010_0000_1000_1110_1010_0011,",
   "            OpcodeKind::BaseI(BaseIOpcode::SB),",
   "            None,",
   "            Some(1),",
   "            Some(2),",
   "            Some(-3),",
   "        );",
   "        test_32_in_rv64(",
   "            0b1110_1110_1100_0010_1000_0010_1001_0011,",
   "            OpcodeKind::BaseI(BaseIOpcode::ADDI),",
   "            Some(5),",
   "            Some(5),",
   "            None,",
   "            Some(-276),",
   "        );",
   "        test_32_in_rv64(",
   "            0b0000_0000_0000_0000_0000_0000_0111_0011,",
   "            OpcodeKind::BaseI(BaseIOpcode::ECALL),",
   "            None,",
   "            None,",
   "            None,",
   "            None,",
   "        );",
   "        test_32_in_rv64(",
   "            0b0000_0000_0000_0101_0100_1100_0110_0011,",
   "            OpcodeKind::BaseI(BaseIOpcode::BLT),",
   "            None,",
   "            Some(10),",
   "            Some(0),",
   "            Some(24),",
   "        );",
   "        test_32_in_rv64(",
   "            0x0010_0513,",
   "            OpcodeKind::BaseI(BaseIOpcode::ADDI),",
   "            Some(10),",
   "            Some(0),",
   "            None,",
   "            Some(1),",
   "        );",
   "        test_32_in_rv64(",
   "            0x4170_04b3,",
   "            OpcodeKind::BaseI(BaseIOpcode::SUB),",
   "            Some(9),",
   "            Some(0),",
   "            Some(23),",
   "            None,",
   "        );",
   "        test_32_in_rv64(",
   "            0x3307_3983,",
   "            OpcodeKind::BaseI(BaseIOpcode::LD),",
   "            Some(19),",
   "            Some(14),",
   "            None,",
   "            Some(816),",
   "        );",
   "        test_32_in_rv64(",
   "            0x10ec_eb63,",
   "            OpcodeKind::BaseI(BaseIOpcode::BLTU),",
   "            None,",
   "            Some(25),",
   "            Some(14),",
   "            Some(278),",
   "        );",
   "        test_32_in_rv64(",
   "            0x31e1_60ef,",
   "            OpcodeKind::BaseI(BaseIOpcode::JAL),",
   "            Some(1),",
   "            None,",
   "            None,",
   "            Some(90910),",
   "        );",
   "        test_32_in_rv64(",
   "            0x0019_4913,",
   "            OpcodeKind::BaseI(BaseIOpcode::XORI),",
   "            Some(18),",
   "            Some(18),",
   "            None,",
   "            Some(1),",
   "        );",
   "        test_32_in_rv64(",
   "            0x00a9_3933,",
   "            OpcodeKind::BaseI(BaseIOpcode::SLTU),",
   "            Some(18),",
   "            Some(18),",
   "            Some(10),",
   "            None,",
   "        );",
   "    }",
   "}"]

/-- src/decode/c_extension.rs:1-372; the whole file. -/
def decode_c_extension_rs : List String :=
  ["pub mod bit_16 {",
   "    use super::super::{only_rv64, DecodeUtil, DecodingError};",
   "    use crate::instruction::c_extension::COpcode;",
   "    use crate::Isa;",
   "",
   "    fn quadrant0(_inst: u16, opmap: u8, isa: Isa) -> Result<COpcode, DecodingError> {",
   "        match opmap {",
   "            0b000 => Ok(COpcode::ADDI4SPN),",
   "            0b010 => Ok(COpcode::LW),",
   "            0b011 => only_rv64(COpcode::LD, isa),",
   "            0b110 => Ok(COpcode::SW),",
   "            0b111 => only_rv64(COpcode::SD, isa),",
   "            _ => Err(DecodingError::InvalidOpcode),",
   "        }",
   "    }",
   "",
   "    fn quadrant1(inst: u16, opmap: u8, isa: Isa) -> Result<COpcode, DecodingError> {",
   "        let sr_flag: u8 = u8::try_from(inst.slice(11, 10)).unwrap();",
   "        let lo_flag: u8 = u8::try_from(inst.slice(6, 5)).unwrap();",
   "        let mi_flag: u8 = u8::try_from(inst.slice(11, 7)).unwrap();",
   "        let bit_12: u8 = u8::try_from(inst.slice(12, 12)).unwrap();",
   "",
   "        match opmap {",
   "            0b000 => match mi_flag {",
   "                0b00000 => Ok(COpcode::NOP),",
   "                _ => Ok(COpcode::ADDI),",
   "            },",
   "            0b001 => match isa {",
   "                Isa::Rv32 => Ok(COpcode::JAL),",
   "                Isa::Rv64 => Ok(COpcode::ADDIW),",
   "            },",
   "            0b010 => Ok(COpcode::LI),",
   "            0b011 => match mi_flag {",
   "                0b00010 => Ok(COpcode::ADDI16SP),",
   "                _ => Ok(COpcode::LUI),",
   "            },",
   "            0b100 => match sr_flag {",
   "                0b00 => Ok(COpcode::SRLI),",
   "                0b01 => Ok(COpcode::SRAI),",
   "                0b10 => Ok(COpcode::ANDI),",
   "                0b11 => match bit_12 {",
   "                    0b0 => match lo_flag {",
   "                        0b00 => Ok(COpcode::SUB),",
   "                        0b01 => Ok(COpcode::XOR),",
   "                        0b10 => Ok(COpcode::OR),",
   "                        0b11 => Ok(COpcode::AND),",
   "                        _ => Err(DecodingError::InvalidOpcode),",
   "                    },",
   "                    0b1 => match lo_flag {",
   "                        0b00 => only_rv64(COpcode::SUBW, isa),",
   "                        0b01 => only_rv64(COpcode::ADDW, isa),",
   "                        _ => Err(DecodingError::InvalidOpcode),",
   "                    },",
   "                    _ => unreachable!(),",
   "                },",
   "                _ => Err(DecodingError::InvalidOpcode),",
   "            },",
   "            0b101 => Ok(COpcode::J),",
   "            0b110 => Ok(COpcode::BEQZ),",
   "            0b111 => Ok(COpcode::BNEZ),",
   "            _ => Err(DecodingError::InvalidOpcode),",
   "        }",
   "    }",
   "",
   "    fn quadrant2(inst: u16, opmap: u8, isa: Isa) -> Result<COpcode, DecodingError> {",
   "        let lo_flag: u8 = u8::try_from(inst.slice(6, 2)).unwrap();",
   "        let mi_flag: u8 = u8::try_from(inst.slice(11, 7)).unwrap();",
   "        let hi_flag: u8 = u8::try_from(inst.slice(12, 12)).unwrap();",
   "",
   "        match opmap {",
   "            0b000 => Ok(COpcode::SLLI),",
   "            0b010 => Ok(COpcode::LWSP),",
   "            0b011 => only_rv64(COpcode::LDSP, isa),",
   "            0b100 => match hi_flag {",
   "                0b0 => match lo_flag {",
   "                    0b0 => Ok(COpcode::JR),",
   "                    _ => Ok(COpcode::MV),",
   "                },",
   "                0b1 => match mi_flag {",
   "                    0b0 => Ok(COpcode::EBREAK),",
   "                    _ => match lo_flag {",
   "                        0b0 => Ok(COpcode::JALR),",
   "                        _ => Ok(COpcode::ADD),",
   "                    },",
   "                },",
   "                _ => Err(DecodingError::InvalidOpcode),",
   "            },",
   "            0b110 => Ok(COpcode::SWSP),",
   "            0b111 => only_rv64(COpcode::SDSP, isa),",
   "            _ => Err(DecodingError::InvalidOpcode),",
   "        }",
   "    }",
   "",
   "    pub fn parse_opcode(inst: u16, isa: Isa) -> Result<COpcode, DecodingError> {",
   "        let opmap: u8 = u8::try_from(inst.slice(15, 13)).unwrap();",
   "        let quadrant: u8 = u8::try_from(inst.slice(1, 0)).unwrap();",
   "",
   "        if inst == 0b0000_0000_0000_0000 {",
   "            return Err(DecodingError::InvalidOpcode);",
   "        }",
   "",
   "        match quadrant {",
   "            0b00 => quadrant0(inst, opmap, isa),",
   "            0b01 => quadrant1(inst, opmap, isa),",
   "            0b10 => quadrant2(inst, opmap, isa),",
   "            _ => Err(DecodingError::InvalidOpcode),",
   "        }",
   "    }",
   "",
   "    pub fn parse_rd(inst: u16, opkind: &COpcode) -> Option<usize> {",
   "        // see riscv-spec-20191213.pdf, page 100, Table 16.2",
   "        let q0_rd: usize = (inst.slice(4, 2) + 8) as usize;",
   "        let q1_rd: usize = (inst.slice(9, 7) + 8) as usize;",
   "        let q1_wide_rd: usize = inst.slice(11, 7) as usize;",
   "        let q2_rd: usize = inst.slice(11, 7) as usize;",
   "",
   "        match opkind {",
   "            // Quadrant 0",
   "            COpcode::ADDI4SPN | COpcode::LW | COpcode::LD => Some(q0_rd),",
   "            // Quadrant 1",
   "            COpcode::SRLI",
   "            | COpcode::SRAI",
   "            | COpcode::ANDI",
   "            | COpcode::SUB",
   "            | COpcode::XOR",
   "            | COpcode::OR",
   "            | COpcode::AND",
   "            | COpcode::ADDW",
   "            | COpcode::SUBW => Some(q1_rd),",
   "            COpcode::LI | COpcode::LUI | COpcode::ADDI | COpcode::ADDIW | COpcode::ADDI16SP => {",
   "                Some(q1_wide_rd)",
   "            }",
   "            // Quadrant 2",
   "            COpcode::SLLI | COpcode::LWSP | COpcode::LDSP | COpcode::MV | COpcode::ADD => {",
   "                Some(q2_rd)",
   "            }",
   "            _ => None,",
   "        }",
   "    }",
   "",
   "    pub fn parse_rs1(inst: u16, opkind: &COpcode) -> Option<usize> {",
   "        // see riscv-spec-20191213.pdf, page 100, Table 16.2",
   "        let q0_rs1: usize = (inst.slice(9, 7) + 8) as usize;",
   "        let q1_rs1: usize = (inst.slice(9, 7) + 8) as usize;",
   "        let q1_addi_rs1: usize = inst.slice(11, 7) as usize;",
   "        let q2_rs1: usize = inst.slice(11, 7) as usize;",
   "",
   "        match opkind {",
   "            // Quadrant 0",
   "            COpcode::LW | COpcode::LD | COpcode::SW | COpcode::SD => Some(q0_rs1),",
   "            // Quadrant 1",
   "            COpcode::ADDI | COpcode::ADDIW | COpcode::ADDI16SP => Some(q1_addi_rs1),",
   "            COpcode::SRLI",
   "            | COpcode::SRAI",
   "            | COpcode::ANDI",
   "            | COpcode::SUB",
   "            | COpcode::XOR",
   "            | COpcode::OR",
   "            | COpcode::AND",
   "            | COpcode::BEQZ",
   "            | COpcode::BNEZ",
   "            | COpcode::SUBW",
   "            | COpcode::ADDW => Some(q1_rs1),",
   "            // Quadrant 2",
   "            COpcode::SLLI | COpcode::JR | COpcode::JALR | COpcode::ADD => Some(q2_rs1),",
   "            _ => None,",
   "        }",
   "    }",
   "",
   "    pub fn parse_rs2(inst: u16, opkind: &COpcode) -> Option<usize> {",
   "        // see riscv-spec-20191213.pdf, page 100, Table 16.2",
   "        let q0_rs2: usize = (inst.slice(4, 2) + 8) as usize;",
   "        let q1_rs2: usize = (inst.slice(4, 2) + 8) as usize;",
   "        let q2_rs2: usize = inst.slice(6, 2) as usize;",
   "",
   "        match opkind {",
   "            // Quadrant 0",
   "            COpcode::SW | COpcode::SD => Some(q0_rs2),",
   "            // Quadrant 1",
   "            COpcode::SUB",
   "            | COpcode::XOR",
   "            | COpcode::OR",
   "            | COpcode::AND",
   "            | COpcode::SUBW",
   "            | COpcode::ADDW => Some(q1_rs2),",
   "            // Quadrant 2",
   "            COpcode::JR",
   "            | COpcode::JALR",
   "            | COpcode::MV",
   "            | COpcode::ADD",
   "            | COpcode::SWSP",
   "            | COpcode::SDSP => Some(q2_rs2),",
   "            _ => None,",
   "        }",
   "    }",
   "",
   "    #[allow(clippy::cast_possible_wrap)]",
   "    #[allow(clippy::similar_names)]",
   "    pub fn parse_imm(inst: u16, opkind: &COpcode) -> Option<i32> {",
   "        let q0_uimm = || (inst.slice(12, 10).set(&[5, 4, 3]) | inst.slice(6, 5).set(&[2, 6]));",
   "        let q0_uimm_64 = || (inst.slice(12, 10).set(&[5, 4, 3]) | inst.slice(6, 5).set(&[7, 6]));",
   "        let q0_nzuimm = || inst.slice(12, 5).set(&[5, 4, 9, 8, 7, 6, 2, 3]);",
   "        let q1_nzuimm = || (inst.slice(6, 2).set(&[4, 3, 2, 1, 0]) | inst.slice(12, 12).set(&[5]));",
   "        let q1_nzimm = || {",
   "            let imm16 =",
   "                (inst.slice(6, 2).set(&[4, 3, 2, 1, 0]) | inst.slice(12, 12).set(&[5])) as i32;",
   "            inst.to_signed_nbit(imm16, 6)",
   "        };",
   "        let q1_imm = || {",
   "            let imm16 =",
   "                (inst.slice(6, 2).set(&[4, 3, 2, 1, 0]) | inst.slice(12, 12).set(&[5])) as i32;",
   "            inst.to_signed_nbit(imm16, 6)",
   "        };",
   "        let q1_j_imm = || {",
   "            let imm16 = inst.slice(12, 2).set(&[11, 4, 9, 8, 10, 6, 7, 3, 2, 1, 5]) as i32;",
   "            inst.to_signed_nbit(imm16, 12)",
   "        };",
   "        let q1_b_imm = || {",
   "            let imm16 = (inst.slice(6, 2).set(&[7, 6, 2, 1, 5])",
   "                | inst.slice(12, 10).set(&[8, 4, 3])) as i32;",
   "            inst.to_signed_nbit(imm16, 9)",
   "        };",
   "        let q1_16sp_nzimm = || {",
   "            let imm16 =",
   "                (inst.slice(6, 2).set(&[4, 6, 8, 7, 5]) | inst.slice(12, 12).set(&[9])) as i32;",
   "            inst.to_signed_nbit(imm16, 10)",
   "        };",
   "        let q1_lui_imm = || {",
   "            let imm16 = (inst.slice(6, 2).set(&[16, 15, 14, 13, 12])",
   "                | inst.slice(12, 12).set(&[17])) as i32;",
   "            inst.to_signed_nbit(imm16, 18)",
   "        };",
   "        let q2_imm =",
   "            || (inst.slice(6, 2).set(&[4, 3, 2, 1, 0]) | inst.slice(12, 12).set(&[5])) as i32;",
   "        let q2_lwsp_imm =",
   "            || (inst.slice(6, 2).set(&[4, 3, 2, 7, 6]) | inst.slice(12, 12).set(&[5])) as i32;",
   "        let q2_ldsp_imm =",
   "            || (inst.slice(6, 2).set(&[4, 3, 8, 7, 6]) | inst.slice(12, 12).set(&[5])) as i32;",
   "        let q2_swsp_imm = || inst.slice(12, 7).set(&[5, 4, 3, 2, 7, 6]) as i32;",
   "        let q2_sdsp_imm = || inst.slice(12, 7).set(&[5, 4, 3, 8, 7, 6]) as i32;",
   "",
   "        match opkind {",
   "            // Quadrant0",
   "            COpcode::ADDI4SPN => Some(q0_nzuimm() as i32),",
   "            COpcode::LW | COpcode::SW => Some(q0_uimm() as i32),",
   "            COpcode::LD | COpcode::SD => Some(q0_uimm_64() as i32),",
   "            // Quadrant1",
   "            COpcode::ADDIW | COpcode::LI | COpcode::ANDI => Some(q1_imm()),",
   "            COpcode::NOP | COpcode::ADDI => Some(q1_nzimm()),",
   "            COpcode::SRLI | COpcode::SRAI => Some(q1_nzuimm() as i32),",
   "            COpcode::JAL | COpcode::J => Some(q1_j_imm()),",
   "            COpcode::BEQZ | COpcode::BNEZ => Some(q1_b_imm()),",
   "            COpcode::LUI => Some(q1_lui_imm()),",
   "            COpcode::ADDI16SP => Some(q1_16sp_nzimm()),",
   "            // Quadrant2",
   "            COpcode::SLLI => Some(q2_imm()),",
   "            COpcode::LWSP => Some(q2_lwsp_imm()),",
   "            COpcode::LDSP => Some(q2_ldsp_imm()),",
   "            COpcode::SWSP => Some(q2_swsp_imm()),",
   "            COpcode::SDSP => Some(q2_sdsp_imm()),",
   "            _ => None,",
   "        }",
   "    }",
   "}",
   "",
   "#[cfg(test)]",
   "#[allow(unused_variables)]",
   "mod test_c {",
   "    #[test]",
   "    fn c_decode_test() {",
   "        use crate::decode::inst_16::test_16_in_rv64;",
   "        use crate::instruction::c_extension::COpcode;",
   "        use crate::OpcodeKind;",
   "",
   "        test_16_in_rv64(",
   "            0b0000_0000_0000_0001,",
   "            OpcodeKind::C(COpcode::NOP),",
   "            None,",
   "            None,",
   "            None,",
   "            Some(0),",
   "        );",
   "        test_16_in_rv64(",
   "            0b0110_0011_1000_0001,",
   "            OpcodeKind::C(COpcode::LUI),",
   "            Some(7),",
   "            None,",
   "            None,",
   "            Some(0),",
   "        );",
   "        test_16_in_rv64(",
   "            0b1000_0010_1100_0001,",
   "            OpcodeKind::C(COpcode::SRLI),",
   "            Some(13),",
   "            Some(13),",
   "            None,",
   "            Some(16),",
   "        );",
   "        test_16_in_rv64(",
   "            0x4521,",
   "            OpcodeKind::C(COpcode::LI),",
   "            Some(10),",
   "            None,",
   "            None,",
   "            Some(8),",
   "        );",
   "        test_16_in_rv64(",
   "            0xb5e5,",
   "            OpcodeKind::C(COpcode::J),",
   "            None,",
   "            None,",
   "            None,",
   "            Some(-280),",
   "        );",
   "        test_16_in_rv64(",
   "            0x6105,",
   "            OpcodeKind::C(COpcode::ADDI16SP),",
   "            Some(2),",
   "            Some(2),",
   "            None,",
   "            Some(32),",
   "        );",
   "        test_16_in_rv64(",
   "            0x8082,",
   "            OpcodeKind::C(COpcode::JR),",
   "            None,",
   "            Some(1),",
   "            Some(0),",
   "            None,",
   "        );",
   "        test_16_in_rv64(",
   "            0xe29d,",
   "            OpcodeKind::C(COpcode::BNEZ),",
   "            None,",
   "            Some(13),",
   "            None,",
   "            Some(38),",
   "        );",
   "        test_16_in_rv64(",
   "            0xc05c,",
   "            OpcodeKind::C(COpcode::SW),",
   "            None,",
   "            Some(8),",
   "            Some(15),",
   "            Some(4),",
   "        );",
   "        test_16_in_rv64(",
   "            0x9002,",
   "            OpcodeKind::C(COpcode::EBREAK),",
   "            None,",
   "            None,",
   "            None,",
   "            None,",
   "        );",
   "        test_16_in_rv64(",
   "            0x880a,",
   "            OpcodeKind::C(COpcode::MV),",
   "            Some(16),",
   "            None,",
   "            Some(2),",
   "            None,",
   "        );",
   "        test_16_in_rv64(",
   "            0x8585,",
   "            OpcodeKind::C(COpcode::SRAI),",
   "            Some(11),",
   "            Some(11),",
   "            None,",
   "            Some(1),",
   "        );",
   "    }",
   "}"]

/-- src/decode/m_extension.rs:1-138; the whole file. -/
def decode_m_extension_rs : List String :=
  ["pub mod bit_32 {",
   "    use super::super::{only_rv64, DecodeUtil, DecodingError};",
   "    use crate::instruction::m_extension::MOpcode;",
   "    use crate::Isa;",
   "",
   "    pub fn parse_opcode(inst: u32, isa: Isa) -> Result<MOpcode, DecodingError> {",
   "        let opmap: u8 = u8::try_from(inst.slice(6, 0)).unwrap();",
   "        let funct3: u8 = u8::try_from(inst.slice(14, 12)).unwrap();",
   "",
   "        match opmap {",
   "            0b011_0011 => match funct3 {",
   "                0b000 => Ok(MOpcode::MUL),",
   "                0b001 => Ok(MOpcode::MULH),",
   "                0b010 => Ok(MOpcode::MULHSU),",
   "                0b011 => Ok(MOpcode::MULHU),",
   "                0b100 => Ok(MOpcode::DIV),",
   "                0b101 => Ok(MOpcode::DIVU),",
   "                0b110 => Ok(MOpcode::REM),",
   "                0b111 => Ok(MOpcode::REMU),",
   "                _ => Err(DecodingError::InvalidFunct3),",
   "            },",
   "            0b011_1011 => match funct3 {",
   "                0b000 => only_rv64(MOpcode::MULW, isa),",
   "                0b100 => only_rv64(MOpcode::DIVW, isa),",
   "                0b101 => only_rv64(MOpcode::DIVUW, isa),",
   "                0b110 => only_rv64(MOpcode::REMW, isa),",
   "                0b111 => only_rv64(MOpcode::REMUW, isa),",
   "                _ => Err(DecodingError::InvalidFunct3),",
   "            },",
   "            _ => Err(DecodingError::InvalidOpcode),",
   "        }",
   "    }",
   "",
   "    #[allow(clippy::unnecessary_wraps)]",
   "    pub fn parse_rd(inst: u32, opkind: &MOpcode) -> Option<usize> {",
   "        let rd: usize = inst.slice(11, 7) as usize;",
   "",
   "        match opkind {",
   "            MOpcode::MUL",
   "            | MOpcode::MULH",
   "            | MOpcode::MULHSU",
   "            | MOpcode::MULHU",
   "            | MOpcode::DIV",
   "            | MOpcode::DIVU",
   "            | MOpcode::REM",
   "            | MOpcode::REMU",
   "            | MOpcode::MULW",
   "            | MOpcode::DIVW",
   "            | MOpcode::DIVUW",
   "            | MOpcode::REMW",
   "            | MOpcode::REMUW => Some(rd),",
   "        }",
   "    }",
   "",
   "    #[allow(clippy::unnecessary_wraps)]",
   "    pub fn parse_rs1(inst: u32, opkind: &MOpcode) -> Option<usize> {",
   "        let rs1: usize = inst.slice(19, 15) as usize;",
   "",
   "        match opkind {",
   "            MOpcode::MUL",
   "            | MOpcode::MULH",
   "            | MOpcode::MULHSU",
   "            | MOpcode::MULHU",
   "            | MOpcode::DIV",
   "            | MOpcode::DIVU",
   "            | MOpcode::REM",
   "            | MOpcode::REMU",
   "            | MOpcode::MULW",
   "            | MOpcode::DIVW",
   "            | MOpcode::DIVUW",
   "            | MOpcode::REMW",
   "            | MOpcode::REMUW => Some(rs1),",
   "        }",
   "    }",
   "",
   "    #[allow(clippy::unnecessary_wraps)]",
   "    pub fn parse_rs2(inst: u32, opkind: &MOpcode) -> Option<usize> {",
   "        let rs2: usize = inst.slice(24, 20) as usize;",
   "",
   "        match opkind {",
   "            MOpcode::MUL",
   "            | MOpcode::MULH",
   "            | MOpcode::MULHSU",
   "            | MOpcode::MULHU",
   "            | MOpcode::DIV",
   "            | MOpcode::DIVU",
   "            | MOpcode::REM",
   "            | MOpcode::REMU",
   "            | MOpcode::MULW",
   "            | MOpcode::DIVW",
   "            | MOpcode::DIVUW",
   "            | MOpcode::REMW",
   "            | MOpcode::REMUW => Some(rs2),",
   "        }",
   "    }",
   "",
   "    #[allow(non_snake_case)]",
   "    pub fn parse_imm(_inst: u32, _opkind: &MOpcode) -> Option<i32> {",
   "        None",
   "    }",
   "}",
   "",
   "#[cfg(test)]",
   "#[allow(unused_variables)]",
   "mod test_m {",
   "    #[test]",
   "    #[allow(overflowing_literals)]",
   "    fn m_decode_test() {",
   "        use crate::decode::inst_32::test_32_in_rv64;",
   "        use crate::instruction::m_extension::MOpcode;",
   "        use crate::OpcodeKind;",
   "",
   "        test_32_in_rv64(",
   "            0x02d706b3,",
   "            OpcodeKind::M(MOpcode::MUL),",
   "            Some(13),",
   "            Some(14),",
   "            Some(13),",
   "            None,",
   "        );",
   "        test_32_in_rv64(",
   "            0x0289_7933,",
   "            OpcodeKind::M(MOpcode::REMU),",
   "            Some(18),",
   "            Some(18),",
   "            Some(8),",
   "            None,",
   "        );",
   "        test_32_in_rv64(",
   "            0x0289_5933,",
   "            OpcodeKind::M(MOpcode::DIVU),",
   "            Some(18),",
   "            Some(18),",
   "            Some(8),",
   "            None,",
   "        );",
   "    }",
   "}"]

/-- src/decode/priv_extension.rs:1-77; the whole file. -/
def decode_priv_extension_rs : List String :=
  ["pub mod bit_32 {",
   "    use super::super::{DecodeUtil, DecodingError};",
   "    use crate::instruction::priv_extension::PrivOpcode;",
   "",
   "    pub fn parse_opcode(inst: u32) -> Result<PrivOpcode, DecodingError> {",
   "        let _opmap: u8 = u8::try_from(inst.slice(6, 0)).unwrap();",
   "        let _funct3: u8 = u8::try_from(inst.slice(14, 12)).unwrap();",
   "        let funct7: u8 = u8::try_from(inst.slice(31, 25)).unwrap();",
   "",
   "        match inst {",
   "            0b0001_0000_0010_0000_0000_0000_0111_0011 => Ok(PrivOpcode::SRET),",
   "            0b0011_0000_0010_0000_0000_0000_0111_0011 => Ok(PrivOpcode::MRET),",
   "            0b0001_0000_0101_0000_0000_0000_0111_0011 => Ok(PrivOpcode::WFI),",
   "            _ => match funct7 {",
   "                0b000_1001 => Ok(PrivOpcode::SFENCE_VMA),",
   "                _ => Err(DecodingError::InvalidFunct7),",
   "            },",
   "        }",
   "    }",
   "",
   "    #[allow(clippy::unnecessary_wraps)]",
   "    pub fn parse_rd(_inst: u32, _opkind: &PrivOpcode) -> Option<usize> {",
   "        None",
   "    }",
   "",
   "    pub fn parse_rs1(inst: u32, opkind: &PrivOpcode) -> Option<usize> {",
   "        let rs1: usize = inst.slice(19, 15) as usize;",
   "",
   "        match opkind {",
   "            PrivOpcode::SFENCE_VMA => Some(rs1),",
   "            _ => None,",
   "        }",
   "    }",
   "",
   "    pub fn parse_rs2(inst: u32, opkind: &PrivOpcode) -> Option<usize> {",
   "        let rs2: usize = inst.slice(24, 20) as usize;",
   "",
   "        match opkind {",
   "            PrivOpcode::SFENCE_VMA => Some(rs2),",
   "            _ => None,",
   "        }",
   "    }",
   "",
   "    #[allow(clippy::unnecessary_wraps)]",
   "    pub fn parse_imm(_inst: u32, _opkind: &PrivOpcode) -> Option<i32> {",
   "        None",
   "    }",
   "}",
   "",
   "#[cfg(test)]",
   "#[allow(unused_variables)]",
   "mod test_priv {",
   "    #[test]",
   "    #[allow(overflowing_literals)]",
   "    fn priv_decode_test() {",
   "        use crate::decode::inst_32::test_32_in_rv64;",
   "        use crate::instruction::priv_extension::PrivOpcode;",
   "        use crate::OpcodeKind;",
   "",
   "        test_32_in_rv64(",
   "            0x10200073,",
   "            OpcodeKind::Priv(PrivOpcode::SRET),",
   "            None,",
   "            None,",
   "            None,",
   "            None,",
   "        );",
   "        test_32_in_rv64(",
   "            0x10500073,",
   "            OpcodeKind::Priv(PrivOpcode::WFI),",
   "            None,",
   "            None,",
   "            None,",
   "            None,",
   "        );",
   "    }",
   "}"]

/-- src/decode/zicboz_extension.rs:1-78; the whole file. -/
def decode_zicboz_extension_rs : List String :=
  ["pub mod bit_32 {",
   "    use super::super::{DecodeUtil, DecodingError};",
   "    use crate::instruction::zicboz_extension::ZicbozOpcode;",
   "",
   "    pub fn parse_opcode(inst: u32) -> Result<ZicbozOpcode, DecodingError> {",
   "        let opmap: u8 = u8::try_from(inst.slice(6, 0)).unwrap();",
   "        let funct3: u8 = u8::try_from(inst.slice(14, 12)).unwrap();",
   "        let field_11_7: u8 = u8::try_from(inst.slice(11, 7)).unwrap();",
   "        let cbo_num: u16 = u16::try_from(inst.slice(31, 20)).unwrap();",
   "",
   "        match opmap {",
   "            0b000_1111 => match funct3 {",
   "                0b010 => match cbo_num {",
   "                    0b100 => match field_11_7 {",
   "                        0x0 => Ok(ZicbozOpcode::CBO_ZERO),",
   "                        _ => Err(DecodingError::InvalidOpcode),",
   "                    },",
   "                    _ => Err(DecodingError::InvalidOpcode),",
   "                },",
   "                _ => Err(DecodingError::InvalidFunct3),",
   "            },",
   "            _ => Err(DecodingError::InvalidOpcode),",
   "        }",
   "    }",
   "",
   "    #[allow(clippy::unnecessary_wraps)]",
   "    pub fn parse_rd(_inst: u32, _opkind: &ZicbozOpcode) -> Option<usize> {",
   "        None",
   "    }",
   "",
   "    #[allow(clippy::unnecessary_wraps)]",
   "    pub fn parse_rs1(inst: u32, opkind: &ZicbozOpcode) -> Option<usize> {",
   "        let rs1: u8 = u8::try_from(inst.slice(19, 15)).unwrap();",
   "        match opkind {",
   "            ZicbozOpcode::CBO_ZERO => Some(rs1.into()),",
   "        }",
   "    }",
   "",
   "    #[allow(clippy::unnecessary_wraps)]",
   "    pub fn parse_rs2(_inst: u32, _opkind: &ZicbozOpcode) -> Option<usize> {",
   "        None",
   "    }",
   "",
   "    #[allow(clippy::cast_possible_wrap, clippy::unnecessary_wraps)]",
   "    pub fn parse_imm(_inst: u32, _opkind: &ZicbozOpcode) -> Option<i32> {",
   "        None",
   "    }",
   "}",
   "",
   "#[cfg(test)]",
   "#[allow(unused_variables)]",
   "mod test_zicboz {",
   "    #[test]",
   "    #[allow(overflowing_literals)]",
   "    fn zicboz_decode_test() {",
   "        use crate::decode::inst_32::test_32_in_rv64;",
   "        use crate::instruction::zicboz_extension::ZicbozOpcode;",
   "        use crate::OpcodeKind;",
   "",
   "        test_32_in_rv64(",
   "            0b0000_0000_0100_1010_1010_0000_0000_1111,",
   "            OpcodeKind::Zicboz(ZicbozOpcode::CBO_ZERO),",
   "            None,",
   "            Some(21),",
   "            None,",
   "            None,",
   "        );",
   "",
   "        test_32_in_rv64(",
   "            0b0000_0000_0100_1000_0010_0000_0000_1111,",
   "            OpcodeKind::Zicboz(ZicbozOpcode::CBO_ZERO),",
   "            None,",
   "            Some(16),",
   "            None,",
   "            None,",
   "        );",
   "    }",
   "}"]

/-- src/decode/zicfiss_extension.rs:1-231; the whole file. -/
def decode_zicfiss_extension_rs : List String :=
  ["pub mod bit_32 {",
   "    use super::super::{DecodeUtil, DecodingError};",
   "    use crate::instruction::zicfiss_extension::ZicfissOpcode;",
   "",
   "    pub fn parse_opcode(inst: u32) -> Result<ZicfissOpcode, DecodingError> {",
   "        let opmap: u8 = u8::try_from(inst.slice(6, 0)).unwrap();",
   "        let funct3: u8 = u8::try_from(inst.slice(14, 12)).unwrap();",
   "        let rs1: u8 = u8::try_from(inst.slice(19, 15)).unwrap();",
   "        let funct7_rs2: u16 = u16::try_from(inst.slice(31, 20)).unwrap();",
   "",
   "        match opmap {",
   "            0b111_0011 => match funct3 {",
   "                0b100 => match funct7_rs2 {",
   "                    0b1100_1110_0001 | 0b1100_1110_0101 => Ok(ZicfissOpcode::SSPUSH),",
   "                    0b1100_1101_1100 => match rs1 {",
   "                        0b0_0000 => Ok(ZicfissOpcode::SSRDP),",
   "                        _ => Ok(ZicfissOpcode::SSPOPCHK),",
   "                    },",
   "                    _ => Err(DecodingError::InvalidOpcode),",
   "                },",
   "                _ => Err(DecodingError::InvalidFunct3),",
   "            },",
   "            0b010_1111 => match funct3 {",
   "                0b010 => Ok(ZicfissOpcode::SSAMOSWAP_W),",
   "                0b011 => Ok(ZicfissOpcode::SSAMOSWAP_D),",
   "                _ => Err(DecodingError::InvalidFunct3),",
   "            },",
   "            _ => Err(DecodingError::InvalidOpcode),",
   "        }",
   "    }",
   "",
   "    #[allow(clippy::unnecessary_wraps)]",
   "    pub fn parse_rd(inst: u32, opkind: &ZicfissOpcode) -> Option<usize> {",
   "        let rd: usize = inst.slice(11, 7) as usize;",
   "        match opkind {",
   "            ZicfissOpcode::SSPUSH | ZicfissOpcode::SSPOPCHK => Some(0),",
   "            ZicfissOpcode::SSRDP | ZicfissOpcode::SSAMOSWAP_W | ZicfissOpcode::SSAMOSWAP_D => {",
   "                Some(rd)",
   "            }",
   "            ZicfissOpcode::C_SSPUSH | ZicfissOpcode::C_SSPOPCHK => unreachable!(),",
   "        }",
   "    }",
   "",
   "    #[allow(clippy::unnecessary_wraps)]",
   "    pub fn parse_rs1(inst: u32, opkind: &ZicfissOpcode) -> Option<usize> {",
   "        let rs1: usize = inst.slice(19, 15) as usize;",
   "        match opkind {",
   "            ZicfissOpcode::SSPUSH => Some(0),",
   "            ZicfissOpcode::SSPOPCHK | ZicfissOpcode::SSAMOSWAP_W | ZicfissOpcode::SSAMOSWAP_D => {",
   "                Some(rs1)",
   "            }",
   "            ZicfissOpcode::SSRDP => None,",
   "            ZicfissOpcode::C_SSPUSH | ZicfissOpcode::C_SSPOPCHK => unreachable!(),",
   "        }",
   "    }",
   "",
   "    #[allow(clippy::unnecessary_wraps)]",
   "    pub fn parse_rs2(inst: u32, opkind: &ZicfissOpcode) -> Option<usize> {",
   "        let rs2: usize = inst.slice(24, 20) as usize;",
   "        match opkind {",
   "            ZicfissOpcode::SSPUSH | ZicfissOpcode::SSAMOSWAP_W | ZicfissOpcode::SSAMOSWAP_D => {",
   "                Some(rs2)",
   "            }",
   "            ZicfissOpcode::SSPOPCHK | ZicfissOpcode::SSRDP => None,",
   "            ZicfissOpcode::C_SSPUSH | ZicfissOpcode::C_SSPOPCHK => unreachable!(),",
   "        }",
   "    }",
   "",
   "    #[allow(clippy::cast_possible_wrap, clippy::unnecessary_wraps)]",
   "    pub fn parse_imm(_inst: u32, opkind: &ZicfissOpcode) -> Option<i32> {",
   "        match opkind {",
   "            ZicfissOpcode::SSPUSH",
   "            | ZicfissOpcode::SSPOPCHK",
   "            | ZicfissOpcode::SSRDP",
   "            | ZicfissOpcode::SSAMOSWAP_W",
   "            | ZicfissOpcode::SSAMOSWAP_D => None,",
   "            ZicfissOpcode::C_SSPUSH | ZicfissOpcode::C_SSPOPCHK => unreachable!(),",
   "        }",
   "    }",
   "}",
   "",
   "pub mod bit_16 {",
   "    use super::super::DecodingError;",
   "    use crate::instruction::zicfiss_extension::ZicfissOpcode;",
   "    use crate::Isa;",
   "",
   "    pub fn parse_opcode(inst: u16, _isa: Isa) -> Result<ZicfissOpcode, DecodingError> {",
   "        match inst {",
   "            0b0110_0000_1000_0001 => Ok(ZicfissOpcode::C_SSPUSH),",
   "            0b0110_0010_1000_0001 => Ok(ZicfissOpcode::C_SSPOPCHK),",
   "            _ => Err(DecodingError::InvalidOpcode),",
   "        }",
   "    }",
   "",
   "    #[allow(clippy::unnecessary_wraps)]",
   "    pub fn parse_rd(_inst: u16, opkind: &ZicfissOpcode) -> Option<usize> {",
   "        match opkind {",
   "            ZicfissOpcode::C_SSPUSH => Some(1),",
   "            ZicfissOpcode::C_SSPOPCHK => Some(5),",
   "            _ => unreachable!(),",
   "        }",
   "    }",
   "",
   "    #[allow(clippy::unnecessary_wraps)]",
   "    pub fn parse_rs1(_inst: u16, _opkind: &ZicfissOpcode) -> Option<usize> {",
   "        None",
   "    }",
   "",
   "    #[allow(clippy::unnecessary_wraps)]",
   "    pub fn parse_rs2(_inst: u16, _opkind: &ZicfissOpcode) -> Option<usize> {",
   "        None",
   "    }",
   "",
   "    #[allow(clippy::cast_possible_wrap, clippy::unnecessary_wraps)]",
   "    pub fn parse_imm(_inst: u16, _opkind: &ZicfissOpcode) -> Option<i32> {",
   "        None",
   "    }",
   "}",
   "",
   "#[cfg(test)]",
   "#[allow(unused_variables)]",
   "mod test_zicfiss {",
   "    #[test]",
   "    #[allow(overflowing_literals)]",
   "    fn zicfiss_32bit_decode_test() {",
   "        use crate::decode::inst_32::test_32_in_rv64;",
   "        use crate::instruction::zicfiss_extension::ZicfissOpcode;",
   "        use crate::OpcodeKind;",
   "",
   "        test_32_in_rv64(",
   "            0b1100_1110_0101_0000_0100_0000_0111_0011,",
   "            OpcodeKind::Zicfiss(ZicfissOpcode::SSPUSH),",
   "            Some(0),",
   "            Some(0),",
   "            Some(5),",
   "            None,",
   "        );",
   "",
   "        test_32_in_rv64(",
   "            0b1100_1110_0001_0000_0100_0000_0111_0011,",
   "            OpcodeKind::Zicfiss(ZicfissOpcode::SSPUSH),",
   "            Some(0),",
   "            Some(0),",
   "            Some(1),",
   "            None,",
   "        );",
   "",
   "        test_32_in_rv64(",
   "            0b1100_1101_1100_0000_1100_0000_0111_0011,",
   "            OpcodeKind::Zicfiss(ZicfissOpcode::SSPOPCHK),",
   "            Some(0),",
   "            Some(1),",
   "            None,",
   "            None,",
   "        );",
   "",
   "        test_32_in_rv64(",
   "            0b1100_1101_1100_0010_1100_0000_0111_0011,",
   "            OpcodeKind::Zicfiss(ZicfissOpcode::SSPOPCHK),",
   "            Some(0),",
   "            Some(5),",
   "            None,",
   "            None,",
   "        );",
   "",
   "        test_32_in_rv64(",
   "            0b0100_1000_1100_0010_1010_0001_1010_1111,",
   "            OpcodeKind::Zicfiss(ZicfissOpcode::SSAMOSWAP_W),",
   "            Some(3),",
   "            Some(5),",
   "            Some(12),",
   "            None,",
   "        );",
   "",
   "        test_32_in_rv64(",
   "            0b0100_1000_1100_0111_0011_0001_1010_1111,",
   "            OpcodeKind::Zicfiss(ZicfissOpcode::SSAMOSWAP_D),",
   "            Some(3),",
   "            Some(14),",
   "            Some(12),",
   "            None,",
   "        );",
   "",
   "        test_32_in_rv64(",
   "            0xcdc0c073,",
   "            OpcodeKind::Zicfiss(ZicfissOpcode::SSPOPCHK),",
   "            Some(0),",
   "            Some(1),",
   "            None,",
   "            None,",
   "        );",
   "    }",
   "",
   "    #[test]",
   "    #[allow(overflowing_literals)]",
   "    fn zicfiss_16() {",
   "        use crate::instruction::zicfiss_extension::ZicfissOpcode;",
   "        use crate::{Decode, Isa, OpcodeKind};",
   "        let test_16 = |inst_16: u16,",
   "                       op: OpcodeKind,",
   "                       rd: Option<usize>,",
   "                       rs1: Option<usize>,",
   "                       rs2: Option<usize>,",
   "                       imm: Option<i32>| {",
   "            let op_16 = inst_16.parse_opcode(Isa::Rv64).unwrap();",
   "            assert!(matches!(&op_16, op));",
   "            assert_eq!(inst_16.parse_rd(&op_16).unwrap(), rd);",
   "            assert_eq!(inst_16.parse_rs1(&op_16).unwrap(), rs1);",
   "            assert_eq!(inst_16.parse_rs2(&op_16).unwrap(), rs2);",
   "            assert_eq!(inst_16.parse_imm(&op_16, Isa::Rv64).unwrap(), imm);",
   "        };",
   "",
   "        test_16(",
   "            0x6081,",
   "            OpcodeKind::Zicfiss(ZicfissOpcode::C_SSPUSH),",
   "            Some(1),",
   "            None,",
   "            None,",
   "            None,",
   "        );",
   "",
   "        test_16(",
   "            0x6281,",
   "            OpcodeKind::Zicfiss(ZicfissOpcode::C_SSPOPCHK),",
   "            Some(5),",
   "            None,",
   "            None,",
   "            None,",
   "        );",
   "    }",
   "}"]

/-- src/decode/zicntr_extension.rs:1-96; the whole file. -/
def decode_zicntr_extension_rs : List String :=
  ["pub mod bit_32 {",
   "    use super::super::{DecodeUtil, DecodingError};",
   "    use crate::instruction::zicntr_extension::ZicntrOpcode;",
   "",
   "    pub fn parse_opcode(inst: u32) -> Result<ZicntrOpcode, DecodingError> {",
   "        let opmap: u8 = u8::try_from(inst.slice(6, 0)).unwrap();",
   "        let funct3: u8 = u8::try_from(inst.slice(14, 12)).unwrap();",
   "        let csr_num: u16 = u16::try_from(inst.slice(31, 20)).unwrap();",
   "",
   "        match opmap {",
   "            0b111_0011 => match funct3 {",
   "                0b010 => match csr_num {",
   "                    0xc00 => Ok(ZicntrOpcode::RDCYCLE),",
   "                    0xc01 => Ok(ZicntrOpcode::RDTIME),",
   "                    0xc02 => Ok(ZicntrOpcode::RDINSTRET),",
   "                    0xc80 => Ok(ZicntrOpcode::RDCYCLE_H),",
   "                    0xc81 => Ok(ZicntrOpcode::RDTIME_H),",
   "                    0xc82 => Ok(ZicntrOpcode::RDINSTRET_H),",
   "                    _ => Err(DecodingError::InvalidOpcode),",
   "                },",
   "                _ => Err(DecodingError::InvalidFunct3),",
   "            },",
   "            _ => Err(DecodingError::InvalidOpcode),",
   "        }",
   "    }",
   "",
   "    #[allow(clippy::unnecessary_wraps)]",
   "    pub fn parse_rd(inst: u32, opkind: &ZicntrOpcode) -> Option<usize> {",
   "        let rd: usize = inst.slice(11, 7) as usize;",
   "        match opkind {",
   "            ZicntrOpcode::RDCYCLE",
   "            | ZicntrOpcode::RDTIME",
   "            | ZicntrOpcode::RDINSTRET",
   "            | ZicntrOpcode::RDCYCLE_H",
   "            | ZicntrOpcode::RDTIME_H",
   "            | ZicntrOpcode::RDINSTRET_H => Some(rd),",
   "        }",
   "    }",
   "",
   "    #[allow(clippy::unnecessary_wraps)]",
   "    pub fn parse_rs1(_inst: u32, opkind: &ZicntrOpcode) -> Option<usize> {",
   "        match opkind {",
   "            ZicntrOpcode::RDCYCLE",
   "            | ZicntrOpcode::RDTIME",
   "            | ZicntrOpcode::RDINSTRET",
   "            | ZicntrOpcode::RDCYCLE_H",
   "            | ZicntrOpcode::RDTIME_H",
   "            | ZicntrOpcode::RDINSTRET_H => None,",
   "        }",
   "    }",
   "",
   "    #[allow(clippy::unnecessary_wraps)]",
   "    pub fn parse_rs2(_inst: u32, opkind: &ZicntrOpcode) -> Option<usize> {",
   "        match opkind {",
   "            ZicntrOpcode::RDCYCLE",
   "            | ZicntrOpcode::RDTIME",
   "            | ZicntrOpcode::RDINSTRET",
   "            | ZicntrOpcode::RDCYCLE_H",
   "            | ZicntrOpcode::RDTIME_H",
   "            | ZicntrOpcode::RDINSTRET_H => None,",
   "        }",
   "    }",
   "",
   "    #[allow(clippy::cast_possible_wrap, clippy::unnecessary_wraps)]",
   "    pub fn parse_imm(_inst: u32, opkind: &ZicntrOpcode) -> Option<i32> {",
   "        match opkind {",
   "            ZicntrOpcode::RDCYCLE",
   "            | ZicntrOpcode::RDTIME",
   "            | ZicntrOpcode::RDINSTRET",
   "            | ZicntrOpcode::RDCYCLE_H",
   "            | ZicntrOpcode::RDTIME_H",
   "            | ZicntrOpcode::RDINSTRET_H => None,",
   "        }",
   "    }",
   "}",
   "",
   "#[cfg(test)]",
   "#[allow(unused_variables)]",
   "mod test_zicntr {",
   "    #[test]",
   "    #[allow(overflowing_literals)]",
   "    fn zicntr_decode_test() {",
   "        use crate::decode::inst_32::test_32_in_rv64;",
   "        use crate::instruction::zicntr_extension::ZicntrOpcode;",
   "        use crate::OpcodeKind;",
   "",
   "        test_32_in_rv64(",
   "            0b1100_0000_0001_0000_0010_0111_1111_0011,",
   "            OpcodeKind::Zicntr(ZicntrOpcode::RDTIME),",
   "            Some(15),",
   "            None,",
   "            None,",
   "            None,",
   "        );",
   "    }",
   "}"]

/-- src/decode/zicsr_extension.rs:1-106; the whole file. -/
def decode_zicsr_extension_rs : List String :=
  ["pub mod bit_32 {",
   "    use super::super::{DecodeUtil, DecodingError};",
   "    use crate::instruction::zicsr_extension::ZicsrOpcode;",
   "",
   "    pub fn parse_opcode(inst: u32) -> Result<ZicsrOpcode, DecodingError> {",
   "        let opmap: u8 = u8::try_from(inst.slice(6, 0)).unwrap();",
   "        let funct3: u8 = u8::try_from(inst.slice(14, 12)).unwrap();",
   "",
   "        match opmap {",
   "            0b111_0011 => match funct3 {",
   "                0b001 => Ok(ZicsrOpcode::CSRRW),",
   "                0b010 => Ok(ZicsrOpcode::CSRRS),",
   "                0b011 => Ok(ZicsrOpcode::CSRRC),",
   "                0b101 => Ok(ZicsrOpcode::CSRRWI),",
   "                0b110 => Ok(ZicsrOpcode::CSRRSI),",
   "                0b111 => Ok(ZicsrOpcode::CSRRCI),",
   "                _ => Err(DecodingError::InvalidFunct3),",
   "            },",
   "            _ => Err(DecodingError::InvalidOpcode),",
   "        }",
   "    }",
   "",
   "    #[allow(clippy::unnecessary_wraps)]",
   "    pub fn parse_rd(inst: u32, opkind: &ZicsrOpcode) -> Option<usize> {",
   "        let rd: usize = inst.slice(11, 7) as usize;",
   "",
   "        match opkind {",
   "            ZicsrOpcode::CSRRW",
   "            | ZicsrOpcode::CSRRS",
   "            | ZicsrOpcode::CSRRC",
   "            | ZicsrOpcode::CSRRWI",
   "            | ZicsrOpcode::CSRRSI",
   "            | ZicsrOpcode::CSRRCI => Some(rd),",
   "        }",
   "    }",
   "",
   "    pub fn parse_rs1(inst: u32, opkind: &ZicsrOpcode) -> Option<usize> {",
   "        let rs1: usize = inst.slice(19, 15) as usize;",
   "",
   "        // LUI, AUIPC, JAL, FENCE, ECALL, EBREAK",
   "        match opkind {",
   "            ZicsrOpcode::CSRRW | ZicsrOpcode::CSRRS | ZicsrOpcode::CSRRC => Some(rs1),",
   "            _ => None,",
   "        }",
   "    }",
   "",
   "    #[allow(clippy::unnecessary_wraps)]",
   "    pub fn parse_rs2(inst: u32, opkind: &ZicsrOpcode) -> Option<usize> {",
   "        let csr: usize = inst.slice(31, 20) as usize;",
   "",
   "        match opkind {",
   "            ZicsrOpcode::CSRRW",
   "            | ZicsrOpcode::CSRRS",
   "            | ZicsrOpcode::CSRRC",
   "            | ZicsrOpcode::CSRRWI",
   "            | ZicsrOpcode::CSRRSI",
   "            | ZicsrOpcode::CSRRCI => Some(csr),",
   "        }",
   "    }",
   "",
   "    #[allow(clippy::cast_possible_wrap)]",
   "    pub fn parse_imm(inst: u32, opkind: &ZicsrOpcode) -> Option<i32> {",
   "        let uimm: u32 = inst.slice(19, 15);",
   "        match opkind {",
   "            ZicsrOpcode::CSRRWI | ZicsrOpcode::CSRRSI | ZicsrOpcode::CSRRCI => Some(uimm as i32),",
   "            _ => None,",
   "        }",
   "    }",
   "}",
   "",
   "#[cfg(test)]",
   "#[allow(unused_variables)]",
   "mod test_zicsr {",
   "    #[test]",
   "    #[allow(overflowing_literals)]",
   "    fn zicsr_decode_test() {",
   "        use crate::decode::inst_32::test_32_in_rv64;",
   "        use crate::instruction::zicsr_extension::ZicsrOpcode;",
   "        use crate::OpcodeKind;",
   "",
   "        test_32_in_rv64(",
   "            0b0001_0000_0000_1000_0011_0000_0111_0011,",
   "            OpcodeKind::Zicsr(ZicsrOpcode::CSRRC),",
   "            Some(0),     // rd",
   "            Some(16),    // rs1",
   "            Some(0x100), // csr",
   "            None,",
   "        );",
   "        test_32_in_rv64(",
   "            0b0001_0000_0000_1000_0010_0000_0111_0011,",
   "            OpcodeKind::Zicsr(ZicsrOpcode::CSRRS),",
   "            Some(0),     // rd",
   "            Some(16),    // rs1",
   "            Some(0x100), // csr",
   "            None,",
   "        );",
   "        test_32_in_rv64(",
   "            0b0001_0000_0000_0001_0110_0000_0111_0011,",
   "            OpcodeKind::Zicsr(ZicsrOpcode::CSRRSI),",
   "            Some(0),     // rd",
   "            None,        // rs1",
   "            Some(0x100), // csr",
   "            Some(2),     // imm",
   "        );",
   "    }",
   "}"]

/-- src/decode/zifencei_extension.rs:1-67; the whole file. -/
def decode_zifencei_extension_rs : List String :=
  ["pub mod bit_32 {",
   "    use super::super::{DecodeUtil, DecodingError};",
   "    use crate::instruction::zifencei_extension::ZifenceiOpcode;",
   "",
   "    pub fn parse_opcode(inst: u32) -> Result<ZifenceiOpcode, DecodingError> {",
   "        let opmap: u8 = u8::try_from(inst.slice(6, 0)).unwrap();",
   "",
   "        match opmap {",
   "            0b000_1111 => Ok(ZifenceiOpcode::FENCE),",
   "            _ => Err(DecodingError::InvalidOpcode),",
   "        }",
   "    }",
   "",
   "    #[allow(clippy::unnecessary_wraps)]",
   "    pub fn parse_rd(inst: u32, opkind: &ZifenceiOpcode) -> Option<usize> {",
   "        let rd: usize = inst.slice(11, 7) as usize;",
   "",
   "        match opkind {",
   "            ZifenceiOpcode::FENCE => Some(rd),",
   "        }",
   "    }",
   "",
   "    #[allow(clippy::unnecessary_wraps)]",
   "    pub fn parse_rs1(inst: u32, opkind: &ZifenceiOpcode) -> Option<usize> {",
   "        let rs1: usize = inst.slice(19, 15) as usize;",
   "",
   "        match opkind {",
   "            ZifenceiOpcode::FENCE => Some(rs1),",
   "        }",
   "    }",
   "",
   "    #[allow(clippy::unnecessary_wraps)]",
   "    pub fn parse_rs2(_inst: u32, opkind: &ZifenceiOpcode) -> Option<usize> {",
   "        match opkind {",
   "            ZifenceiOpcode::FENCE => None,",
   "        }",
   "    }",
   "",
   "    #[allow(clippy::cast_possible_wrap, clippy::unnecessary_wraps)]",
   "    pub fn parse_imm(inst: u32, opkind: &ZifenceiOpcode) -> Option<i32> {",
   "        let fm_pred_succ: u32 = inst.slice(31, 20);",
   "        match opkind {",
   "            ZifenceiOpcode::FENCE => Some(fm_pred_succ as i32),",
   "        }",
   "    }",
   "}",
   "",
   "#[cfg(test)]",
   "#[allow(unused_variables)]",
   "mod test_zifenci {",
   "    #[test]",
   "    #[allow(overflowing_literals)]",
   "    fn zifenci_decode_test() {",
   "        use crate::decode::inst_32::test_32_in_rv64;",
   "        use crate::instruction::zifencei_extension::ZifenceiOpcode;",
   "        use crate::OpcodeKind;",
   "",
   "        test_32_in_rv64(",
   "            0b0000_0011_0011_0000_0000_0000_0000_1111,",
   "            OpcodeKind::Zifencei(ZifenceiOpcode::FENCE),",
   "            Some(0),",
   "            Some(0),",
   "            None,",
   "            Some(0b0011_0011),",
   "        );",
   "    }",
   "}"]

/-- The files of the crate, with the name of the module each one holds. -/
def files : List (String × List String) :=
  [("lib", lib_rs),
   ("decode", decode_rs),
   ("instruction", instruction_rs),
   ("a_extension", instruction_a_extension_rs),
   ("base_i", instruction_base_i_rs),
   ("c_extension", instruction_c_extension_rs),
   ("m_extension", instruction_m_extension_rs),
   ("priv_extension", instruction_priv_extension_rs),
   ("zicboz_extension", instruction_zicboz_extension_rs),
   ("zicfiss_extension", instruction_zicfiss_extension_rs),
   ("zicntr_extension", instruction_zicntr_extension_rs),
   ("zicsr_extension", instruction_zicsr_extension_rs),
   ("zifencei_extension", instruction_zifencei_extension_rs),
   ("inst_16", decode_inst_16_rs),
   ("inst_32", decode_inst_32_rs),
   ("a_extension", decode_a_extension_rs),
   ("base_i", decode_base_i_rs),
   ("c_extension", decode_c_extension_rs),
   ("m_extension", decode_m_extension_rs),
   ("priv_extension", decode_priv_extension_rs),
   ("zicboz_extension", decode_zicboz_extension_rs),
   ("zicfiss_extension", decode_zicfiss_extension_rs),
   ("zicntr_extension", decode_zicntr_extension_rs),
   ("zicsr_extension", decode_zicsr_extension_rs),
   ("zifencei_extension", decode_zifencei_extension_rs)]

end Raki.Source
