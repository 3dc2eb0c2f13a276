import Verif.Model.Types
/-!
# Text of instructions

What the printed form of an instruction is, stated without any formatting function: numerals are
described by their digits and value, registers by the ABI naming rule, and the operands shown by a table
per opcode.  From the model only the data types are used.
-/

namespace Raki.Spec

/-! ## Numerals -/

/-- Value of a digit: `0`..`9`, `a`..`f`. -/
def digitVal (c : Char) : Nat := if c.toNat < 58 then c.toNat - 48 else c.toNat - 87

/-- Value of a digit string, most significant digit first. -/
def digitsVal (b : Nat) (cs : List Char) : Nat := cs.foldl (fun a c => a * b + digitVal c) 0

/-- A character that is a digit in base `b` (lower case). -/
def isDigitIn (b : Nat) (c : Char) : Prop :=
  (48 ≤ c.toNat ∧ c.toNat ≤ 57 ∨ 97 ≤ c.toNat ∧ c.toNat ≤ 102) ∧ digitVal c < b

/-- `cs` is the numeral of `n` in base `b`: digits only, at least one, no superfluous leading zero, and
the right value. -/
def isNumeral (b : Nat) (cs : List Char) (n : Nat) : Prop :=
  cs ≠ [] ∧ (∀ c ∈ cs, isDigitIn b c) ∧ (cs.head? = some '0' → cs = ['0']) ∧ digitsVal b cs = n

/-- Decimal text of an integer. -/
def isDecimal (s : String) (z : Int) : Prop :=
  (0 ≤ z ∧ isNumeral 10 s.toList z.toNat) ∨
    (z < 0 ∧ ∃ cs, s.toList = '-' :: cs ∧ isNumeral 10 cs (-z).toNat)

/-- Hexadecimal text of the 32-bit two's complement of an integer. -/
def isHex32 (s : String) (z : Int) : Prop := isNumeral 16 s.toList (z % 2 ^ 32).toNat

/-- Hexadecimal text of a natural number. -/
def isHex (s : String) (n : Nat) : Prop := isNumeral 16 s.toList n

/-! ## Registers -/

/-- One of the ten decimal digits, as text. -/
def digitText : Nat → String
  | 0 => "0" | 1 => "1" | 2 => "2" | 3 => "3" | 4 => "4"
  | 5 => "5" | 6 => "6" | 7 => "7" | 8 => "8" | _ => "9"

/-- ABI name of an integer register: zero ra sp gp tp, t0-t2 in x5-x7, s0-s1 in x8-x9, a0-a7 in
x10-x17, s2-s11 in x18-x27, t3-t6 in x28-x31. -/
def abiName (n : Nat) : String :=
  if n = 0 then "zero" else if n = 1 then "ra" else if n = 2 then "sp" else if n = 3 then "gp"
  else if n = 4 then "tp"
  else if n ≤ 7 then "t" ++ digitText (n - 5)
  else if n ≤ 9 then "s" ++ digitText (n - 8)
  else if n ≤ 17 then "a" ++ digitText (n - 10)
  else if n ≤ 25 then "s" ++ digitText (n - 16)
  else if n ≤ 27 then "s1" ++ digitText (n - 26)
  else "t" ++ digitText (n - 25)

/-! ## Mnemonics -/

/-- The manual's mnemonic. -/
def manualName : OpcodeKind → String
  | .BaseI .LUI => "lui" | .BaseI .AUIPC => "auipc" | .BaseI .JAL => "jal" | .BaseI .JALR => "jalr"
  | .BaseI .BEQ => "beq" | .BaseI .BNE => "bne" | .BaseI .BLT => "blt" | .BaseI .BGE => "bge"
  | .BaseI .BLTU => "bltu" | .BaseI .BGEU => "bgeu"
  | .BaseI .LB => "lb" | .BaseI .LH => "lh" | .BaseI .LW => "lw" | .BaseI .LBU => "lbu"
  | .BaseI .LHU => "lhu" | .BaseI .SB => "sb" | .BaseI .SH => "sh" | .BaseI .SW => "sw"
  | .BaseI .ADDI => "addi" | .BaseI .SLTI => "slti" | .BaseI .SLTIU => "sltiu"
  | .BaseI .XORI => "xori" | .BaseI .ORI => "ori" | .BaseI .ANDI => "andi" | .BaseI .SLLI => "slli"
  | .BaseI .SRLI => "srli" | .BaseI .SRAI => "srai" | .BaseI .ADD => "add" | .BaseI .SUB => "sub"
  | .BaseI .SLL => "sll" | .BaseI .SLT => "slt" | .BaseI .SLTU => "sltu" | .BaseI .XOR => "xor"
  | .BaseI .SRL => "srl" | .BaseI .SRA => "sra" | .BaseI .OR => "or" | .BaseI .AND => "and"
  | .BaseI .ECALL => "ecall" | .BaseI .EBREAK => "ebreak"
  | .BaseI .LWU => "lwu" | .BaseI .LD => "ld" | .BaseI .SD => "sd" | .BaseI .ADDIW => "addiw"
  | .BaseI .SLLIW => "slliw" | .BaseI .SRLIW => "srliw" | .BaseI .SRAIW => "sraiw"
  | .BaseI .ADDW => "addw" | .BaseI .SUBW => "subw" | .BaseI .SLLW => "sllw"
  | .BaseI .SRLW => "srlw" | .BaseI .SRAW => "sraw"
  | .M .MUL => "mul" | .M .MULH => "mulh" | .M .MULHSU => "mulhsu" | .M .MULHU => "mulhu"
  | .M .DIV => "div" | .M .DIVU => "divu" | .M .REM => "rem" | .M .REMU => "remu"
  | .M .MULW => "mulw" | .M .DIVW => "divw" | .M .DIVUW => "divuw" | .M .REMW => "remw"
  | .M .REMUW => "remuw"
  | .A .LR_W => "lr.w" | .A .SC_W => "sc.w" | .A .AMOSWAP_W => "amoswap.w"
  | .A .AMOADD_W => "amoadd.w" | .A .AMOXOR_W => "amoxor.w" | .A .AMOAND_W => "amoand.w"
  | .A .AMOOR_W => "amoor.w" | .A .AMOMIN_W => "amomin.w" | .A .AMOMAX_W => "amomax.w"
  | .A .AMOMINU_W => "amominu.w" | .A .AMOMAXU_W => "amomaxu.w"
  | .A .LR_D => "lr.d" | .A .SC_D => "sc.d" | .A .AMOSWAP_D => "amoswap.d"
  | .A .AMOADD_D => "amoadd.d" | .A .AMOXOR_D => "amoxor.d" | .A .AMOAND_D => "amoand.d"
  | .A .AMOOR_D => "amoor.d" | .A .AMOMIN_D => "amomin.d" | .A .AMOMAX_D => "amomax.d"
  | .A .AMOMINU_D => "amominu.d" | .A .AMOMAXU_D => "amomaxu.d"
  | .C .ADDI4SPN => "c.addi4spn" | .C .LW => "c.lw" | .C .SW => "c.sw" | .C .NOP => "c.nop"
  | .C .ADDI => "c.addi" | .C .JAL => "c.jal" | .C .LI => "c.li" | .C .ADDI16SP => "c.addi16sp"
  | .C .LUI => "c.lui" | .C .SRLI => "c.srli" | .C .SRAI => "c.srai" | .C .ANDI => "c.andi"
  | .C .SUB => "c.sub" | .C .XOR => "c.xor" | .C .OR => "c.or" | .C .AND => "c.and"
  | .C .J => "c.j" | .C .BEQZ => "c.beqz" | .C .BNEZ => "c.bnez" | .C .SLLI => "c.slli"
  | .C .LWSP => "c.lwsp" | .C .JR => "c.jr" | .C .MV => "c.mv" | .C .EBREAK => "c.ebreak"
  | .C .JALR => "c.jalr" | .C .ADD => "c.add" | .C .SWSP => "c.swsp" | .C .LD => "c.ld"
  | .C .SD => "c.sd" | .C .ADDIW => "c.addiw" | .C .SUBW => "c.subw" | .C .ADDW => "c.addw"
  | .C .LDSP => "c.ldsp" | .C .SDSP => "c.sdsp"
  | .Zifencei .FENCE => "fence"
  | .Zicboz .CBO_ZERO => "cbo.zero"
  | .Zicsr .CSRRW => "csrrw" | .Zicsr .CSRRS => "csrrs" | .Zicsr .CSRRC => "csrrc"
  | .Zicsr .CSRRWI => "csrrwi" | .Zicsr .CSRRSI => "csrrsi" | .Zicsr .CSRRCI => "csrrci"
  | .Zicfiss .SSPUSH => "sspush" | .Zicfiss .C_SSPUSH => "c.sspush"
  | .Zicfiss .SSPOPCHK => "sspopchk" | .Zicfiss .C_SSPOPCHK => "c.sspopchk"
  | .Zicfiss .SSRDP => "ssrdp" | .Zicfiss .SSAMOSWAP_W => "ssamoswap.w"
  | .Zicfiss .SSAMOSWAP_D => "ssamoswap.d"
  | .Zicntr .RDCYCLE_H => "rdcycleh" | .Zicntr .RDTIME_H => "rdtimeh"
  | .Zicntr .RDINSTRET_H => "rdinstreth" | .Zicntr .RDCYCLE => "rdcycle"
  | .Zicntr .RDTIME => "rdtime" | .Zicntr .RDINSTRET => "rdinstret"
  | .Priv .MRET => "mret" | .Priv .SRET => "sret" | .Priv .WFI => "wfi"
  | .Priv .SFENCE_VMA => "sfence.vma"

/-- The name printed: the manual's, with a capital `C.` for compressed instructions, and with two
deviations. -/
def printedName : OpcodeKind → String
  | .M .MULHSU => "mulhsu,"
  | .Zifencei .FENCE => "fence.i"
  | .C o => String.ofList ('C' :: (manualName (.C o)).toList.tail)
  | op => manualName op

/-! ## Operands shown -/

/-- The operands of an instruction value. -/
inductive Operand where
  | rd | rs1 | rs2 | imm
  deriving DecidableEq, Repr

/-- An item of the printed operand list. -/
inductive Arg where
  /-- ABI name of `rd`, `rs1` or `rs2`. -/
  | rd | rs1 | rs2
  /-- A fixed text. -/
  | lit (s : String)
  /-- `0(reg)` with the ABI name of `rs1`. -/
  | at1
  /-- `rs1` as a decimal number. -/
  | num1
  /-- `rs2` as `0x` and a hexadecimal number. -/
  | hex2
  /-- `rs2` as a decimal number. -/
  | num2
  /-- `imm` in signed decimal. -/
  | imm
  /-- `imm` as `0x` and the hexadecimal two's complement. -/
  | immHex
  /-- `imm` as hexadecimal two's complement without prefix. -/
  | immHexBare
  /-- `imm(reg)` with the ABI name of `rs2`. -/
  | immAt2
  /-- `imm(sp)`. -/
  | immAtSp
  deriving DecidableEq, Repr

/-- The operand list printed for each opcode; none for the four opcodes that cannot be printed. -/
def args : OpcodeKind → Option (List Arg)
  | .BaseI .LUI | .BaseI .AUIPC | .BaseI .JAL => some [.rd, .immHex]
  | .BaseI .BEQ | .BaseI .BNE | .BaseI .BLT | .BaseI .BGE | .BaseI .BLTU | .BaseI .BGEU
  | .BaseI .SB | .BaseI .SH | .BaseI .SW | .BaseI .SD => some [.rs1, .immAt2]
  | .BaseI .JALR | .BaseI .LB | .BaseI .LH | .BaseI .LW | .BaseI .LBU | .BaseI .LHU | .BaseI .LWU
  | .BaseI .LD | .BaseI .ADDI | .BaseI .SLTI | .BaseI .SLTIU | .BaseI .XORI | .BaseI .ORI
  | .BaseI .ANDI | .BaseI .ADDIW => some [.rd, .rs1, .imm]
  | .BaseI .SLLI | .BaseI .SRLI | .BaseI .SRAI | .BaseI .SLLIW | .BaseI .SRLIW | .BaseI .SRAIW =>
      some [.rd, .rs1]
  | .BaseI .ECALL | .BaseI .EBREAK => some []
  | .BaseI _ | .M _ => some [.rd, .rs1, .rs2]
  | .A .LR_W => some [.rd, .rs1, .imm]
  | .A .LR_D => some [.rd, .rs1]
  | .A _ => some [.rd, .rs1, .rs2]
  | .C .ADDI4SPN => some [.rd, .lit "sp", .immHexBare]
  | .C .LW | .C .LD => some [.rd, .rs1, .imm]
  | .C .SW | .C .SD => some [.rs1, .immAt2]
  | .C .NOP | .C .EBREAK => some []
  | .C .JAL | .C .J => some [.imm]
  | .C .LI | .C .ADDI | .C .ADDIW | .C .ADDI16SP | .C .LUI | .C .SLLI | .C .LWSP | .C .LDSP =>
      some [.rd, .rd, .imm]
  | .C .SRLI | .C .SRAI | .C .ANDI | .C .BEQZ | .C .BNEZ => some [.num1, .imm]
  | .C .SUB | .C .XOR | .C .OR | .C .AND | .C .SUBW | .C .ADDW | .C .ADD => some [.rd, .rd, .rs2]
  | .C .JR => some [.lit "zero", .at1]
  | .C .JALR => some [.lit "ra", .at1]
  | .C .MV => some [.rd, .rs2]
  | .C .SWSP | .C .SDSP => some [.rs2, .immAtSp]
  | .Zifencei .FENCE => some []
  | .Zicboz .CBO_ZERO => some [.rs1]
  | .Zicsr .CSRRW | .Zicsr .CSRRS | .Zicsr .CSRRC => some [.rd, .hex2, .rs1]
  | .Zicsr .CSRRWI | .Zicsr .CSRRSI | .Zicsr .CSRRCI => some [.rd, .num2, .imm]
  | .Zicfiss .SSPUSH => some [.rs1]
  | .Zicfiss .SSRDP => some [.rd]
  | .Zicfiss .SSAMOSWAP_W | .Zicfiss .SSAMOSWAP_D => some [.rd, .rs1, .rs2]
  | .Zicfiss .SSPOPCHK | .Zicfiss .C_SSPUSH | .Zicfiss .C_SSPOPCHK => none
  | .Zicntr _ => some [.rd]
  | .Priv .MRET | .Priv .SRET | .Priv .WFI => some []
  | .Priv .SFENCE_VMA => none

/-- The operand list printed for a value whose format field is `f`.  (The fields of a value are public,
so the two may disagree.)  None where no text exists whatever the operands are. -/
def formatArgs (f : InstFormat) (op : OpcodeKind) : Option (List Arg) :=
  match f with
  | .RFormat | .MFormat => some [.rd, .rs1, .rs2]
  | .AFormat => if op = .A .LR_W ∨ op = .A .LR_D then some [.rd, .rs1] else some [.rd, .rs1, .rs2]
  | .RShamtFormat => some [.rd, .rs1]
  | .IFormat | .ALrFormat | .ClFormat => some [.rd, .rs1, .imm]
  | .SFormat | .BFormat | .CsFormat => some [.rs1, .immAt2]
  | .UFormat | .JFormat => some [.rd, .immHex]
  | .CiwFormat => some [.rd, .lit "sp", .immHexBare]
  | .CssFormat => some [.rs2, .immAtSp]
  | .CjFormat => some [.imm]
  | .CiFormat => some [.rd, .rd, .imm]
  | .CaFormat => some [.rd, .rd, .rs2]
  | .CbFormat => some [.num1, .imm]
  | .CrFormat =>
      if op = .C .JR then some [.lit "zero", .at1]
      else if op = .C .JALR then some [.lit "ra", .at1]
      else if op = .C .MV then some [.rd, .rs2]
      else if op = .C .ADD then some [.rd, .rd, .rs2]
      else none
  | .CsrFormat => some [.rd, .hex2, .rs1]
  | .CsrUiFormat => some [.rd, .num2, .imm]
  | .OnlyRd => some [.rd]
  | .OnlyRs1 => some [.rs1]
  | .OnlyRs2 => some [.rs2]
  | .NoOperand =>
      if op ∈ [.BaseI .ECALL, .BaseI .EBREAK, .Zifencei .FENCE, .C .NOP, .C .EBREAK, .Priv .MRET,
        .Priv .SRET, .Priv .WFI, .Priv .SFENCE_VMA] then some [] else none

/-- `s` is the ABI name of the register operand. -/
def isName (o : Option Nat) (s : String) : Prop := ∃ n, o = some n ∧ n < 32 ∧ s = abiName n

/-- `s` is the text of the item for the instruction. -/
def argText (i : Instruction) (a : Arg) (s : String) : Prop :=
  match a with
  | .rd => isName i.rd s
  | .rs1 => isName i.rs1 s
  | .rs2 => isName i.rs2 s
  | .lit t => s = t
  | .at1 => ∃ r, isName i.rs1 r ∧ s = "0(" ++ r ++ ")"
  | .num1 => ∃ n : Nat, i.rs1 = some n ∧ isDecimal s n
  | .hex2 => ∃ n d, i.rs2 = some n ∧ isHex d n ∧ s = "0x" ++ d
  | .num2 => ∃ n : Nat, i.rs2 = some n ∧ isDecimal s n
  | .imm => ∃ z, i.imm = some z ∧ isDecimal s z
  | .immHex => ∃ z d, i.imm = some z ∧ isHex32 d z ∧ s = "0x" ++ d
  | .immHexBare => ∃ z, i.imm = some z ∧ isHex32 s z
  | .immAt2 => ∃ z d r, i.imm = some z ∧ isDecimal d z ∧ isName i.rs2 r ∧ s = d ++ "(" ++ r ++ ")"
  | .immAtSp => ∃ z d, i.imm = some z ∧ isDecimal d z ∧ s = d ++ "(sp)"

/-- The texts are those of the items, one for one. -/
def argTexts (i : Instruction) : List Arg → List String → Prop
  | [], [] => True
  | a :: as, s :: ss => argText i a s ∧ argTexts i as ss
  | _, _ => False

/-- Items separated by comma and space. -/
def commas : List String → String
  | [] => ""
  | [s] => s
  | s :: t :: r => s ++ ", " ++ commas (t :: r)

/-- A line: the name, and after a space the items, if there are any. -/
def line (name : String) (items : List String) : String :=
  match items with
  | [] => name
  | _ => name ++ " " ++ commas items

/-- `s` is the printed form of the instruction. -/
def isText (i : Instruction) (s : String) : Prop :=
  ∃ as ss, args i.opc = some as ∧ argTexts i as ss ∧ s = line (printedName i.opc) ss

/-- Which operands an item shows. -/
def Arg.shows : Arg → List Operand
  | .rd => [.rd]
  | .rs1 | .at1 | .num1 => [.rs1]
  | .rs2 | .hex2 | .num2 => [.rs2]
  | .lit _ => []
  | .imm | .immHex | .immHexBare | .immAtSp => [.imm]
  | .immAt2 => [.imm, .rs2]

/-- The operands shown for an opcode. -/
def shown (op : OpcodeKind) : List Operand := ((args op).getD []).flatMap Arg.shows

/-- The operand is present. -/
def hasOperand (i : Instruction) : Operand → Bool
  | .rd => i.rd.isSome
  | .rs1 => i.rs1.isSome
  | .rs2 => i.rs2.isSome
  | .imm => i.imm.isSome

/-- Two instructions agree on an operand. -/
def sameOperand (i j : Instruction) : Operand → Prop
  | .rd => i.rd = j.rd
  | .rs1 => i.rs1 = j.rs1
  | .rs2 => i.rs2 = j.rs2
  | .imm => i.imm = j.imm

/-- Operands that are reported but not printed. -/
def hidden : OpcodeKind → List Operand
  | .BaseI .SLLI | .BaseI .SRLI | .BaseI .SRAI | .BaseI .SLLIW | .BaseI .SRLIW | .BaseI .SRAIW =>
      [.imm]
  | .A .LR_W => []
  | .A _ => [.imm]
  | .C .NOP => [.imm]
  | .C .ADDI | .C .ADDIW | .C .ADDI16SP | .C .SLLI | .C .SUB | .C .XOR | .C .OR | .C .AND
  | .C .SUBW | .C .ADDW | .C .ADD => [.rs1]
  | .C .SRLI | .C .SRAI | .C .ANDI => [.rd]
  | .C .JR | .C .JALR => [.rs2]
  | .Zifencei .FENCE => [.rd, .rs1, .imm]
  | .Zicfiss .SSPUSH => [.rd, .rs2]
  | _ => []

/-- The operands reported for each opcode. -/
def reported : OpcodeKind → List Operand
  | .Zicfiss .SSPOPCHK => [.rd, .rs1]
  | .Zicfiss .C_SSPUSH | .Zicfiss .C_SSPOPCHK => [.rd]
  | .Priv .SFENCE_VMA => [.rs1, .rs2]
  | op => shown op ++ hidden op

/-- Opcodes whose printed form loses information: a hidden operand is not a function of the others. -/
def lossy : OpcodeKind → Bool
  | .BaseI .SLLI | .BaseI .SRLI | .BaseI .SRAI | .BaseI .SLLIW | .BaseI .SRLIW | .BaseI .SRAIW => true
  | .A .LR_W => false
  | .A _ => true
  | .C .NOP => true
  | .Zifencei .FENCE => true
  | .Zicfiss .SSPUSH => true
  | _ => false

end Raki.Spec
