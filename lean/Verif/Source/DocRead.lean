import Verif.Source.Codes
import Verif.Spec.DocText
/-!
# Reading the documentation

The code blocks in the documentation comments of a file, and the instructions they show.
-/

namespace Raki.Source

open _root_.Raki.Spec (AsmArg)

/-- A text without the spaces (32) it begins with. -/
def trim : List Nat → List Nat
  | [] => []
  | c :: cs => match Nat.beq c 32 with
    | true => trim cs
    | false => c :: cs

/-- The text of a line of documentation, behind `///` or `//!` and a space. -/
def docLine (l : List Nat) : Option (List Nat) :=
  match trim l with
  | 47 :: 47 :: 47 :: 32 :: t | 47 :: 47 :: 33 :: 32 :: t => some t
  | [47, 47, 47] | [47, 47, 33] => some []
  | _ => none

/-- A code block of the documentation. -/
structure Block where
  /-- The line of code that follows the comment. -/
  item : List Nat
  /-- What stands behind the three backquotes. -/
  info : List Nat
  /-- The lines between the backquotes. -/
  body : List (List Nat)

/-- Equality of texts. -/
def sameText : List Nat → List Nat → Bool
  | [], [] => true
  | c :: cs, d :: ds => (Nat.beq c d).and (sameText cs ds)
  | _, _ => false

/-- The code blocks (between lines that begin with three backquotes, 96) of a file, where `o` is the block that is
open and `bs` are the blocks of the comment so far. -/
def blocksFrom : List (List Nat) → Option (List Nat × List (List Nat)) → List (List Nat × List (List Nat)) →
    List Block
  | [], _, _ => []
  | l :: ls, o, bs => match docLine l, o with
    | some (96 :: 96 :: 96 :: info), none => blocksFrom ls (some (info, [])) bs
    | some _, none => blocksFrom ls none bs
    | some [96, 96, 96], some b => blocksFrom ls none (bs ++ [b])
    | some t, some b => blocksFrom ls (some (b.1, b.2 ++ [t])) bs
    | none, _ => bs.map (fun b => ⟨trim l, b.1, b.2⟩) ++ blocksFrom ls none []

/-- The code blocks of a file. -/
def blocks (ls : List (List Nat)) : List Block := blocksFrom ls none []

/-- The words of a line, between spaces and commas (44); `w` is the word so far, backwards. -/
def splitFrom : List Nat → List Nat → List (List Nat)
  | [], [] => []
  | [], w => [w.reverse]
  | c :: cs, w => match (Nat.beq c 32).or (Nat.beq c 44), w with
    | true, [] => splitFrom cs []
    | true, w => w.reverse :: splitFrom cs []
    | false, w => splitFrom cs (c :: w)

/-- The operand a word stands for: `x2` is `sp`; `nzimm`, `nzuimm` and `shamt` are immediates; `ra` and `t0` are
examples of `rs1` and `rs2`. -/
def shownArgs : List (String × AsmArg) :=
  [("rd", .rd), ("rs1", .rs1), ("rs2", .rs2), ("ra", .rs1), ("t0", .rs2), ("x2", .sp), ("csr", .csr),
    ("imm", .imm), ("nzimm", .imm), ("nzuimm", .imm), ("shamt", .imm), ("imm(rs1)", .mem), ("(rs1)", .ptr),
    ("imm[8:3](x2)", .memSp)]

/-- The operands that words stand for, by a table. -/
def readArgs (table : List (List Nat × AsmArg)) : List (List Nat) → Option (List AsmArg)
  | [] => some []
  | w :: ws => match table.find? (fun e => sameText e.1 w), readArgs table ws with
    | some e, some as => some (e.2 :: as)
    | _, _ => none

/-- The instructions that lines show: a name and operands.  A line `-> sw rs2, ..` (45, 62) shows the operands of the
instruction in the line before it. -/
def readLines (table : List (List Nat × AsmArg)) : List (List Nat) → List (List Nat × Option (List AsmArg))
  | [] => []
  | l :: ls => match splitFrom l [], readLines table ls with
    | [45, 62] :: _ :: ws, r => ([45, 62], readArgs table ws) :: r
    | n :: _, ([45, 62], as) :: r => (n, as) :: r
    | n :: ws, r => (n, readArgs table ws) :: r
    | [], r => r

/-- The instructions shown in the documentation of a file: the item documented, the name and the operands. -/
def shown (text : List String) : List (List Nat × List Nat × Option (List AsmArg)) :=
  (blocks (text.map codes)).flatMap fun b =>
    (readLines (shownArgs.map fun e => (codes e.1, e.2)) b.body).map fun x => (b.item, x)

/-- The lines up to a closing brace (125), each with the last line of documentation `d` above it. -/
def documentedFrom : List (List Nat) → List Nat → List (List Nat × List Nat)
  | [], _ => []
  | l :: ls, d => match docLine l, trim l with
    | some t, _ => documentedFrom ls t
    | none, 125 :: _ => []
    | none, n => (n, d) :: documentedFrom ls []

/-- The lines of the declaration that begins with the line `head`, with their documentation. -/
def documented (head : List Nat) : List (List Nat) → List (List Nat × List Nat)
  | [] => []
  | l :: ls => match sameText l head with
    | true => documentedFrom ls []
    | false => documented head ls

/-- The entries of a list with boxes, `- [x] name` or `- [ ] name` (45, 91, 120 or 32, 93), that are lines of a text:
is the box ticked, and the first word behind it. -/
def boxes (ls : List (List Nat)) : List (Bool × List Nat) :=
  ls.filterMap fun l => match l with
    | 45 :: 32 :: 91 :: c :: 93 :: 32 :: t => match splitFrom t [] with
      | n :: _ => some (Nat.beq c 120, n)
      | [] => none
    | _ => none

end Raki.Source
