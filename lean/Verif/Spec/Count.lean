import Verif.Spec.Isa16
import Verif.Spec.Isa32
/-!
# How many words

Sets of words that are given field by field, and their sizes.
-/

namespace Raki.Spec

/-- What a field of a word may hold. -/
inductive Slot where
  | any
  | isIn (cs : List Nat)
  | notIn (cs : List Nat)

/-- May the field hold this number? -/
def Slot.has : Slot → Nat → Bool
  | .any, _ => true
  | .isIn cs, x => cs.contains x
  | .notIn cs, x => !cs.contains x

/-- How many numbers may a field of `w` bits hold? -/
def Slot.size (w : Nat) : Slot → Nat
  | .any => 2 ^ w
  | .isIn cs => cs.length
  | .notIn cs => 2 ^ w - cs.length

/-- The numbers listed are different and fit in the field. -/
def Slot.ok (w : Nat) : Slot → Bool
  | .any => true
  | .isIn cs | .notIn cs => decide cs.Nodup && cs.all (decide <| · < 2 ^ w)

/-- The fields of a word, lowest first, with their widths. -/
abbrev Cube := List (Nat × Slot)

/-- Is the word in the set? -/
def Cube.has : Cube → Nat → Bool
  | [], _ => true
  | (w, s) :: c, n => s.has (n % 2 ^ w) && Cube.has c (n / 2 ^ w)

/-- How many words are in the set? -/
def Cube.size : Cube → Nat
  | [] => 1
  | (w, s) :: c => s.size w * Cube.size c

/-- The width of the words. -/
def Cube.width : Cube → Nat
  | [] => 0
  | (w, _) :: c => w + Cube.width c

/-- The slots of a set are well formed. -/
def Cube.ok : Cube → Bool
  | [] => true
  | (w, s) :: c => s.ok w && Cube.ok c

/-- No number is in both. -/
def Slot.apart : Slot → Slot → Bool
  | .isIn cs, s => cs.all fun x => !s.has x
  | s, .isIn cs => cs.all fun x => !s.has x
  | _, _ => false

/-- The two sets are given by the same fields, and one of them holds different numbers. -/
def Cube.apart : Cube → Cube → Bool
  | (v, s) :: c, (w, t) :: d => decide (v = w) && (s.apart t || Cube.apart c d)
  | _, _ => false

/-- A union of sets. -/
abbrev Region := List Cube

/-- Is the word in one of them? -/
def Region.has (r : Region) (n : Nat) : Bool := r.any (Cube.has · n)

/-- How many words are in one of them, if no word is in two? -/
def Region.size (r : Region) : Nat := (r.map Cube.size).sum

/-- The sets are well formed, of words of `k` bits, and no word is in two of them. -/
def Region.ok (k : Nat) : Region → Bool
  | [] => true
  | c :: r => c.ok && decide (c.width = k) && r.all c.apart && Region.ok k r

/-! ## Encodings -/

/-- A word with the fields that all formats share. -/
def cube32 (major rd f3 rs1 : Slot) (top : Cube) : Cube :=
  [(7, major), (5, rd), (3, f3), (5, rs1)] ++ top

/-- Bits 31..20 as one field. -/
def top12 (s : Slot) : Cube := [(12, s)]

/-- Bits 31..25 as one field, and bits 24..20. -/
def top7 (rs2 s : Slot) : Cube := [(5, rs2), (7, s)]

/-- Bits 31..26 as one field. -/
def top6 (s : Slot) : Cube := [(6, .any), (6, s)]

/-- Bits 31..27 as one field, and bits 24..20. -/
def top5 (rs2 s : Slot) : Cube := [(5, rs2), (2, .any), (5, s)]

/-- The words with the fixed bits of a row. -/
def cubeOf (isa : Isa) (r : Row) : Cube :=
  let m : Slot := .isIn [r.major]
  let f : Slot := .isIn [r.f3]
  let c : Slot := .isIn [r.code]
  let z : Slot := .isIn [0]
  match r.fmt with
  | .U | .J => cube32 m .any .any .any (top12 .any)
  | .I | .S | .B | .CsrR | .CsrI | .Fence => cube32 m .any f .any (top12 .any)
  | .R | .ShW => cube32 m .any f .any (top7 .any c)
  | .ShX => (match isa with
    | .Rv32 => cube32 m .any f .any (top7 .any c)
    | .Rv64 => cube32 m .any f .any (top6 (.isIn [r.code / 2])))
  | .Amo | .SsAmo => cube32 m .any f .any (top5 .any c)
  | .Lr => cube32 m .any f .any (top5 z c)
  | .Cbo => cube32 m z f .any (top12 c)
  | .SsPush => cube32 m z f z (top7 (.isIn [1, 5]) c)
  | .SsPop => cube32 m z f (.isIn [1, 5]) (top12 c)
  | .SsRd => cube32 m (.notIn [0]) f z (top12 c)
  | .Cntr => cube32 m .any f z (top12 c)
  | .Sys => cube32 m z f z (top12 c)
  | .SfVma => cube32 m z f .any (top7 .any c)

/-- The numbers of the counter CSRs. -/
def counters : List Nat := [0xc00, 0xc01, 0xc02, 0xc80, 0xc81, 0xc82]

/-- Is the opcode in the instruction set, according to the manuals? -/
def inIsa (isa : Isa) (op : OpcodeKind) : Bool :=
  match op, isa with
  | .Zicfiss .SSAMOSWAP_D, .Rv32 => false
  | .Zicntr .RDCYCLE_H, .Rv64 | .Zicntr .RDTIME_H, .Rv64 | .Zicntr .RDINSTRET_H, .Rv64 => false
  | op, .Rv32 => !gated64 op
  | _, _ => true

/-- The words that the manuals assign to an opcode. -/
def officialRegion32 (isa : Isa) (op : OpcodeKind) : Region :=
  match inIsa isa op, op, row32 op with
  | true, .Zicsr .CSRRS, _ => [cube32 (.isIn [0x73]) .any (.isIn [2]) .any (top12 (.notIn counters))]
  | true, _, some r => [cubeOf isa r]
  | _, _, _ => []

/-- The words that the decoder accepts as an opcode. -/
def region32 (isa : Isa) (op : OpcodeKind) : Region :=
  let reg (m f : Nat) (top : Cube) : Region := [cube32 (.isIn [m]) .any (.isIn [f]) .any top]
  match gated64 op, isa with
  | true, .Rv32 => []
  | _, _ => match op with
    | .BaseI .JALR => [cube32 (.isIn [0x67]) .any .any .any (top12 .any)]
    | .BaseI .SLL => reg 0x33 1 (top7 .any (.notIn [1]))
    | .BaseI .SLT => reg 0x33 2 (top7 .any (.notIn [1]))
    | .BaseI .SLTU => reg 0x33 3 (top7 .any (.notIn [1]))
    | .BaseI .XOR => reg 0x33 4 (top7 .any (.notIn [1]))
    | .BaseI .OR => reg 0x33 6 (top7 .any (.notIn [1]))
    | .BaseI .AND => reg 0x33 7 (top7 .any (.notIn [1]))
    | .BaseI .SLLIW => reg 0x1b 1 (top12 .any)
    | .BaseI .SLLW => reg 0x3b 1 (top7 .any (.isIn [0, 0x20]))
    | .BaseI .ECALL => reg 0x73 0 (top12 (.isIn [0]))
    | .BaseI .EBREAK => reg 0x73 0 (top12 (.isIn [1]))
    | .A .LR_W => reg 0x2f 2 (top5 .any (.isIn [2]))
    | .A .LR_D => reg 0x2f 3 (top5 .any (.isIn [2]))
    | .Zicsr .CSRRS => reg 0x73 2 (top12 (.notIn counters))
    | .Zicfiss .SSPUSH => reg 0x73 4 (top12 (.isIn [0xce1, 0xce5]))
    | .Zicfiss .SSPOPCHK => [cube32 (.isIn [0x73]) .any (.isIn [4]) (.notIn [0]) (top12 (.isIn [0xcdc]))]
    | .Zicfiss .SSRDP => [cube32 (.isIn [0x73]) .any (.isIn [4]) (.isIn [0]) (top12 (.isIn [0xcdc]))]
    | .Zicntr .RDCYCLE => reg 0x73 2 (top12 (.isIn [0xc00]))
    | .Zicntr .RDTIME => reg 0x73 2 (top12 (.isIn [0xc01]))
    | .Zicntr .RDINSTRET => reg 0x73 2 (top12 (.isIn [0xc02]))
    | .Zicntr .RDCYCLE_H => reg 0x73 2 (top12 (.isIn [0xc80]))
    | .Zicntr .RDTIME_H => reg 0x73 2 (top12 (.isIn [0xc81]))
    | .Zicntr .RDINSTRET_H => reg 0x73 2 (top12 (.isIn [0xc82]))
    | .Priv .SFENCE_VMA => reg 0x73 0 (top7 .any (.isIn [9]))
    | op => match row32 op with
      | none => []
      | some r => [cubeOf isa r]

/-- A halfword by the fields 1..0, 6..2, 11..7, 12 and 15..13. -/
def cube16 (q f : Nat) (low rd b12 : Slot) : Cube := [(2, .isIn [q]), (5, low), (5, rd), (1, b12), (3, .isIn [f])]

/-- A halfword by the fields 1..0, 4..2, 6..5, 9..7, 11..10, 12 and 15..13. -/
def cubeAlu (low op b12 : Slot) : Cube :=
  [(2, .isIn [1]), (3, .any), (2, low), (3, .any), (2, op), (1, b12), (3, .isIn [4])]

/-- Bit 12 is clear on RV32. -/
def shiftBit : Isa → Slot
  | .Rv32 => .isIn [0]
  | .Rv64 => .any

/-- The halfwords of RV64 only. -/
def only64 (isa : Isa) (r : Region) : Region :=
  match isa with
  | .Rv32 => []
  | .Rv64 => r

/-- The halfwords that the manual assigns to an opcode. -/
def officialRegion16 (isa : Isa) : OpcodeKind → Region
  | .C .ADDI4SPN => [[(2, .isIn [0]), (3, .any), (8, .notIn [0]), (3, .isIn [0])]]
  | .C .LW => [cube16 0 2 .any .any .any]
  | .C .LD => only64 isa [cube16 0 3 .any .any .any]
  | .C .SW => [cube16 0 6 .any .any .any]
  | .C .SD => only64 isa [cube16 0 7 .any .any .any]
  | .C .NOP => [cube16 1 0 .any (.isIn [0]) .any]
  | .C .ADDI => [cube16 1 0 .any (.notIn [0]) .any]
  | .C .JAL => (match isa with
    | .Rv32 => [cube16 1 1 .any .any .any]
    | .Rv64 => [])
  | .C .ADDIW => only64 isa [cube16 1 1 .any (.notIn [0]) .any]
  | .C .LI => [cube16 1 2 .any .any .any]
  | .C .ADDI16SP => [cube16 1 3 .any (.isIn [2]) (.isIn [1]), cube16 1 3 (.notIn [0]) (.isIn [2]) (.isIn [0])]
  | .C .LUI => [cube16 1 3 .any (.notIn [2]) (.isIn [1]), cube16 1 3 (.notIn [0]) (.notIn [2]) (.isIn [0])]
  | .C .SRLI => [cubeAlu .any (.isIn [0]) (shiftBit isa)]
  | .C .SRAI => [cubeAlu .any (.isIn [1]) (shiftBit isa)]
  | .C .ANDI => [cubeAlu .any (.isIn [2]) .any]
  | .C .SUB => [cubeAlu (.isIn [0]) (.isIn [3]) (.isIn [0])]
  | .C .XOR => [cubeAlu (.isIn [1]) (.isIn [3]) (.isIn [0])]
  | .C .OR => [cubeAlu (.isIn [2]) (.isIn [3]) (.isIn [0])]
  | .C .AND => [cubeAlu (.isIn [3]) (.isIn [3]) (.isIn [0])]
  | .C .SUBW => only64 isa [cubeAlu (.isIn [0]) (.isIn [3]) (.isIn [1])]
  | .C .ADDW => only64 isa [cubeAlu (.isIn [1]) (.isIn [3]) (.isIn [1])]
  | .C .J => [cube16 1 5 .any .any .any]
  | .C .BEQZ => [cube16 1 6 .any .any .any]
  | .C .BNEZ => [cube16 1 7 .any .any .any]
  | .C .SLLI => [cube16 2 0 .any .any (shiftBit isa)]
  | .C .LWSP => [cube16 2 2 .any (.notIn [0]) .any]
  | .C .LDSP => only64 isa [cube16 2 3 .any (.notIn [0]) .any]
  | .C .JR => [cube16 2 4 (.isIn [0]) (.notIn [0]) (.isIn [0])]
  | .C .MV => [cube16 2 4 (.notIn [0]) .any (.isIn [0])]
  | .C .EBREAK => [cube16 2 4 (.isIn [0]) (.isIn [0]) (.isIn [1])]
  | .C .JALR => [cube16 2 4 (.isIn [0]) (.notIn [0]) (.isIn [1])]
  | .C .ADD => [cube16 2 4 (.notIn [0]) .any (.isIn [1])]
  | .C .SWSP => [cube16 2 6 .any .any .any]
  | .C .SDSP => only64 isa [cube16 2 7 .any .any .any]
  | .Zicfiss .C_SSPUSH => [cube16 1 3 (.isIn [0]) (.isIn [1]) (.isIn [0])]
  | .Zicfiss .C_SSPOPCHK => [cube16 1 3 (.isIn [0]) (.isIn [5]) (.isIn [0])]
  | _ => []

/-- The halfwords that the decoder accepts as an opcode. -/
def region16 (isa : Isa) : OpcodeKind → Region
  | .C .ADDI4SPN => [[(2, .isIn [0]), (11, .notIn [0]), (3, .isIn [0])]]
  | .C .ADDIW => only64 isa [cube16 1 1 .any .any .any]
  | .C .ADDI16SP => [cube16 1 3 .any (.isIn [2]) .any]
  | .C .LUI => [cube16 1 3 .any (.notIn [1, 2, 5]) .any, cube16 1 3 .any (.isIn [1, 5]) (.isIn [1]),
      cube16 1 3 (.notIn [0]) (.isIn [1, 5]) (.isIn [0])]
  | .C .SRLI => [cubeAlu .any (.isIn [0]) .any]
  | .C .SRAI => [cubeAlu .any (.isIn [1]) .any]
  | .C .SLLI => [cube16 2 0 .any .any .any]
  | .C .LWSP => [cube16 2 2 .any .any .any]
  | .C .LDSP => only64 isa [cube16 2 3 .any .any .any]
  | .C .JR => [cube16 2 4 (.isIn [0]) .any (.isIn [0])]
  | .C .EBREAK => [cube16 2 4 .any (.isIn [0]) (.isIn [1])]
  | .C .ADD => [cube16 2 4 (.notIn [0]) (.notIn [0]) (.isIn [1])]
  | op => officialRegion16 isa op

end Raki.Spec
