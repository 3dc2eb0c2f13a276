import Verif.Model.Display
/-!
# Printing into a sink

Models `impl Display for Instruction` in `/repo/src/instruction.rs` once more, this time with the sink that
the text is written to.  A sink is any implementation of `fmt::Write`: it has a state, receives pieces of
text, and may refuse a piece.  `write!` evaluates all its arguments, then hands the literal pieces of the
template and the arguments to the sink from left to right, and returns at the first refusal.  Every
argument is printed with the flags of its place in the template, so the flags of the formatter that `fmt`
is called with play no role.
-/

namespace Raki

/-- A `fmt::Write`: `write_str` changes the state and says whether the piece was accepted. -/
abbrev Sink (σ : Type) := σ → String → σ × Bool

/-- Outcome of a function that returns `fmt::Result`: `Ok(())`, `Err(fmt::Error)` or a panic, each with the
state that the sink is left in. -/
inductive FmtOut (σ α : Type) where
  | ok (s : σ) (a : α)
  | err (s : σ)
  | panic (s : σ)
  deriving DecidableEq, Repr

/-- Code that may write to the sink. -/
def FmtM (σ α : Type) := σ → FmtOut σ α

namespace FmtM

/-- Sequencing, with `?` on errors. -/
protected def bind {σ α β : Type} (x : FmtM σ α) (f : α → FmtM σ β) : FmtM σ β := fun s =>
  match x s with
  | .ok s' a => f a s'
  | .err s' => .err s'
  | .panic s' => .panic s'

instance {σ : Type} : Monad (FmtM σ) where
  pure a := fun s => .ok s a
  bind := FmtM.bind

end FmtM

/-- `Option::unwrap` in code that may write. -/
def FmtM.unwrap {σ α : Type} : Option α → FmtM σ α
  | some a => fun s => .ok s a
  | none => fun s => .panic s

/-- A call of `reg2str`, src/instruction.rs:228-264, in code that may write. -/
def FmtM.reg2str {σ : Type} (n : Nat) : FmtM σ String := fun s =>
  match Raki.reg2str n with
  | .ok r => .ok s r
  | _ => .panic s

/-- `unreachable!()` -/
def FmtM.unreachable {σ α : Type} : FmtM σ α := fun s => .panic s

/-- The pieces that `{}` on an `i32` writes: the sign on its own, then the digits (core's `pad_integral`). -/
def piecesI32 (z : Int) : List String :=
  if z < 0 then ["-", toString z.natAbs] else [toString z.natAbs]

/-- The pieces that `{:#x}` writes: the prefix, then the digits. -/
def piecesHex (digits : String) : List String := ["0x", digits]

/-- `fmt::write`: the pieces in turn, up to the first refusal. -/
def writePieces {σ : Type} (w : Sink σ) : List String → FmtM σ Unit
  | [], s => .ok s ()
  | c :: cs, s => match w s c with
    | (s', true) => writePieces w cs s'
    | (s', false) => .err s'

/-- `<Instruction as Display>::fmt`, src/instruction.rs:46-225, writing into a sink.  The name of the opcode
arrives as one piece (`impl Display for OpcodeKind`, src/instruction.rs:463-478, passes on to the `Display`
of the extension's opcodes, which each `write!` one literal). -/
def Instruction.fmtTo {σ : Type} (w : Sink σ) (self : Instruction) : FmtM σ Unit :=
  let opc := self.opc.toStr
  match self.instFormat with
  | .RFormat | .MFormat => do
    let rd ← FmtM.reg2str (← FmtM.unwrap self.rd)
    let rs1 ← FmtM.reg2str (← FmtM.unwrap self.rs1)
    let rs2 ← FmtM.reg2str (← FmtM.unwrap self.rs2)
    writePieces w [opc, " ", rd, ", ", rs1, ", ", rs2]
  | .AFormat => (match self.opc with
    | .A .LR_W | .A .LR_D => do
      let rd ← FmtM.reg2str (← FmtM.unwrap self.rd)
      let rs1 ← FmtM.reg2str (← FmtM.unwrap self.rs1)
      writePieces w [opc, " ", rd, ", ", rs1]
    | _ => do
      let rd ← FmtM.reg2str (← FmtM.unwrap self.rd)
      let rs1 ← FmtM.reg2str (← FmtM.unwrap self.rs1)
      let rs2 ← FmtM.reg2str (← FmtM.unwrap self.rs2)
      writePieces w [opc, " ", rd, ", ", rs1, ", ", rs2])
  | .RShamtFormat => do
    let rd ← FmtM.reg2str (← FmtM.unwrap self.rd)
    let rs1 ← FmtM.reg2str (← FmtM.unwrap self.rs1)
    writePieces w [opc, " ", rd, ", ", rs1]
  | .ClFormat | .ALrFormat | .IFormat => do
    let rd ← FmtM.reg2str (← FmtM.unwrap self.rd)
    let rs1 ← FmtM.reg2str (← FmtM.unwrap self.rs1)
    let imm ← FmtM.unwrap self.imm
    writePieces w ([opc, " ", rd, ", ", rs1, ", "] ++ piecesI32 imm)
  | .CsFormat | .SFormat | .BFormat => do
    let rs1 ← FmtM.reg2str (← FmtM.unwrap self.rs1)
    let imm ← FmtM.unwrap self.imm
    let rs2 ← FmtM.reg2str (← FmtM.unwrap self.rs2)
    writePieces w ([opc, " ", rs1, ", "] ++ piecesI32 imm ++ ["(", rs2, ")"])
  | .CiwFormat => do
    let rd ← FmtM.reg2str (← FmtM.unwrap self.rd)
    let imm ← FmtM.unwrap self.imm
    writePieces w [opc, " ", rd, ", sp, ", fmtI32Hex imm]
  | .CssFormat => do
    let rs2 ← FmtM.reg2str (← FmtM.unwrap self.rs2)
    let imm ← FmtM.unwrap self.imm
    writePieces w ([opc, " ", rs2, ", "] ++ piecesI32 imm ++ ["(sp)"])
  | .UFormat | .JFormat => do
    let rd ← FmtM.reg2str (← FmtM.unwrap self.rd)
    let imm ← FmtM.unwrap self.imm
    writePieces w ([opc, " ", rd, ", "] ++ piecesHex (fmtI32Hex imm))
  | .CjFormat => do
    let imm ← FmtM.unwrap self.imm
    writePieces w ([opc, " "] ++ piecesI32 imm)
  | .CiFormat => do
    let rd ← FmtM.reg2str (← FmtM.unwrap self.rd)
    let rd' ← FmtM.reg2str (← FmtM.unwrap self.rd)
    let imm ← FmtM.unwrap self.imm
    writePieces w ([opc, " ", rd, ", ", rd', ", "] ++ piecesI32 imm)
  | .CrFormat => (match self.opc with
    | .C .JR => do
      let rs1 ← FmtM.reg2str (← FmtM.unwrap self.rs1)
      writePieces w [opc, " zero, 0(", rs1, ")"]
    | .C .JALR => do
      let rs1 ← FmtM.reg2str (← FmtM.unwrap self.rs1)
      writePieces w [opc, " ra, 0(", rs1, ")"]
    | .C .MV => do
      let rd ← FmtM.reg2str (← FmtM.unwrap self.rd)
      let rs2 ← FmtM.reg2str (← FmtM.unwrap self.rs2)
      writePieces w [opc, " ", rd, ", ", rs2]
    | .C .ADD => do
      let rd ← FmtM.reg2str (← FmtM.unwrap self.rd)
      let rd' ← FmtM.reg2str (← FmtM.unwrap self.rd)
      let rs2 ← FmtM.reg2str (← FmtM.unwrap self.rs2)
      writePieces w [opc, " ", rd, ", ", rd', ", ", rs2]
    | _ => FmtM.unreachable)
  | .CaFormat => do
    let rd ← FmtM.reg2str (← FmtM.unwrap self.rd)
    let rd' ← FmtM.reg2str (← FmtM.unwrap self.rd)
    let rs2 ← FmtM.reg2str (← FmtM.unwrap self.rs2)
    writePieces w [opc, " ", rd, ", ", rd', ", ", rs2]
  | .CbFormat => do
    let rs1 ← FmtM.unwrap self.rs1
    let imm ← FmtM.unwrap self.imm
    writePieces w ([opc, " ", fmtUsize rs1, ", "] ++ piecesI32 imm)
  | .CsrFormat => do
    let rd ← FmtM.reg2str (← FmtM.unwrap self.rd)
    let rs2 ← FmtM.unwrap self.rs2
    let rs1 ← FmtM.reg2str (← FmtM.unwrap self.rs1)
    writePieces w ([opc, " ", rd, ", "] ++ piecesHex (hexNat rs2) ++ [", ", rs1])
  | .CsrUiFormat => do
    let rd ← FmtM.reg2str (← FmtM.unwrap self.rd)
    let rs2 ← FmtM.unwrap self.rs2
    let imm ← FmtM.unwrap self.imm
    writePieces w ([opc, " ", rd, ", ", fmtUsize rs2, ", "] ++ piecesI32 imm)
  | .OnlyRd => do
    let rd ← FmtM.reg2str (← FmtM.unwrap self.rd)
    writePieces w [opc, " ", rd]
  | .OnlyRs1 => do
    let rs1 ← FmtM.reg2str (← FmtM.unwrap self.rs1)
    writePieces w [opc, " ", rs1]
  | .OnlyRs2 => do
    let rs2 ← FmtM.reg2str (← FmtM.unwrap self.rs2)
    writePieces w [opc, " ", rs2]
  | .NoOperand => (match self.opc with
    | .BaseI .ECALL | .BaseI .EBREAK
    | .Zifencei .FENCE
    | .C .NOP | .C .EBREAK
    | .Priv .MRET | .Priv .SRET | .Priv .WFI | .Priv .SFENCE_VMA => writePieces w [opc]
    | _ => FmtM.unreachable)

end Raki
