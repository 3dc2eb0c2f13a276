import Verif.Model.Rust
import Verif.Model.Types
/-!
# Text of an instruction

Models `impl Display for Instruction` and `reg2str` in `/repo/src/instruction.rs`.  The model yields
the text written to the formatter, or a panic; `Model/Sink` is about formatters that refuse text.
-/

namespace Raki

/-- `Option::unwrap`. -/
def unwrap {α : Type} : Option α → RustM α
  | some a => .ok a
  | none => .panic

/-- `reg2str`, src/instruction.rs:228-264. -/
def reg2str (rd_value : Nat) : RustM String :=
  match rd_value with
  | 0 => .ok "zero"
  | 1 => .ok "ra"
  | 2 => .ok "sp"
  | 3 => .ok "gp"
  | 4 => .ok "tp"
  | 5 => .ok "t0"
  | 6 => .ok "t1"
  | 7 => .ok "t2"
  | 8 => .ok "s0"
  | 9 => .ok "s1"
  | 10 => .ok "a0"
  | 11 => .ok "a1"
  | 12 => .ok "a2"
  | 13 => .ok "a3"
  | 14 => .ok "a4"
  | 15 => .ok "a5"
  | 16 => .ok "a6"
  | 17 => .ok "a7"
  | 18 => .ok "s2"
  | 19 => .ok "s3"
  | 20 => .ok "s4"
  | 21 => .ok "s5"
  | 22 => .ok "s6"
  | 23 => .ok "s7"
  | 24 => .ok "s8"
  | 25 => .ok "s9"
  | 26 => .ok "s10"
  | 27 => .ok "s11"
  | 28 => .ok "t3"
  | 29 => .ok "t4"
  | 30 => .ok "t5"
  | 31 => .ok "t6"
  | _ => .panic

/-- `{}` on an `i32`: signed decimal. -/
def fmtI32 (z : Int) : String := toString z

/-- `{}` on a `usize`: decimal. -/
def fmtUsize (n : Nat) : String := toString n

/-- Lower-case hexadecimal digits of a natural number, no prefix. -/
def hexNat (n : Nat) : String := String.ofList (Nat.toDigits 16 n)

/-- `{:x}` on an `i32`: hexadecimal of the two's complement bit pattern. -/
def fmtI32Hex (z : Int) : String := hexNat (BitVec.ofInt 32 z).toNat

/-- `<Instruction as Display>::fmt`, src/instruction.rs:46-225. -/
def Instruction.fmt (self : Instruction) : RustM String :=
  match self.instFormat with
  | .RFormat | .MFormat => do
    .ok s!"{self.opc.toStr} {← reg2str (← unwrap self.rd)}, {← reg2str (← unwrap self.rs1)}, {← reg2str (← unwrap self.rs2)}"
  | .AFormat => (match self.opc with
    | .A .LR_W | .A .LR_D => do
      .ok s!"{self.opc.toStr} {← reg2str (← unwrap self.rd)}, {← reg2str (← unwrap self.rs1)}"
    | _ => do
      .ok s!"{self.opc.toStr} {← reg2str (← unwrap self.rd)}, {← reg2str (← unwrap self.rs1)}, {← reg2str (← unwrap self.rs2)}")
  | .RShamtFormat => do
    .ok s!"{self.opc.toStr} {← reg2str (← unwrap self.rd)}, {← reg2str (← unwrap self.rs1)}"
  | .ClFormat | .ALrFormat | .IFormat => do
    .ok s!"{self.opc.toStr} {← reg2str (← unwrap self.rd)}, {← reg2str (← unwrap self.rs1)}, {fmtI32 (← unwrap self.imm)}"
  | .CsFormat | .SFormat | .BFormat => do
    .ok s!"{self.opc.toStr} {← reg2str (← unwrap self.rs1)}, {fmtI32 (← unwrap self.imm)}({← reg2str (← unwrap self.rs2)})"
  | .CiwFormat => do
    .ok s!"{self.opc.toStr} {← reg2str (← unwrap self.rd)}, sp, {fmtI32Hex (← unwrap self.imm)}"
  | .CssFormat => do
    .ok s!"{self.opc.toStr} {← reg2str (← unwrap self.rs2)}, {fmtI32 (← unwrap self.imm)}(sp)"
  | .UFormat | .JFormat => do
    .ok s!"{self.opc.toStr} {← reg2str (← unwrap self.rd)}, 0x{fmtI32Hex (← unwrap self.imm)}"
  | .CjFormat => do
    .ok s!"{self.opc.toStr} {fmtI32 (← unwrap self.imm)}"
  | .CiFormat => do
    .ok s!"{self.opc.toStr} {← reg2str (← unwrap self.rd)}, {← reg2str (← unwrap self.rd)}, {fmtI32 (← unwrap self.imm)}"
  | .CrFormat => (match self.opc with
    | .C .JR => do
      .ok s!"{self.opc.toStr} zero, 0({← reg2str (← unwrap self.rs1)})"
    | .C .JALR => do
      .ok s!"{self.opc.toStr} ra, 0({← reg2str (← unwrap self.rs1)})"
    | .C .MV => do
      .ok s!"{self.opc.toStr} {← reg2str (← unwrap self.rd)}, {← reg2str (← unwrap self.rs2)}"
    | .C .ADD => do
      .ok s!"{self.opc.toStr} {← reg2str (← unwrap self.rd)}, {← reg2str (← unwrap self.rd)}, {← reg2str (← unwrap self.rs2)}"
    | _ => .panic)
  | .CaFormat => do
    .ok s!"{self.opc.toStr} {← reg2str (← unwrap self.rd)}, {← reg2str (← unwrap self.rd)}, {← reg2str (← unwrap self.rs2)}"
  | .CbFormat => do
    .ok s!"{self.opc.toStr} {fmtUsize (← unwrap self.rs1)}, {fmtI32 (← unwrap self.imm)}"
  | .CsrFormat => do
    .ok s!"{self.opc.toStr} {← reg2str (← unwrap self.rd)}, 0x{hexNat (← unwrap self.rs2)}, {← reg2str (← unwrap self.rs1)}"
  | .CsrUiFormat => do
    .ok s!"{self.opc.toStr} {← reg2str (← unwrap self.rd)}, {fmtUsize (← unwrap self.rs2)}, {fmtI32 (← unwrap self.imm)}"
  | .OnlyRd => do
    .ok s!"{self.opc.toStr} {← reg2str (← unwrap self.rd)}"
  | .OnlyRs1 => do
    .ok s!"{self.opc.toStr} {← reg2str (← unwrap self.rs1)}"
  | .OnlyRs2 => do
    .ok s!"{self.opc.toStr} {← reg2str (← unwrap self.rs2)}"
  | .NoOperand => (match self.opc with
    | .BaseI .ECALL | .BaseI .EBREAK
    | .Zifencei .FENCE
    | .C .NOP | .C .EBREAK
    | .Priv .MRET | .Priv .SRET | .Priv .WFI | .Priv .SFENCE_VMA => .ok self.opc.toStr
    | _ => .panic)

end Raki
