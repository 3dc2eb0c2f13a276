import Verif.Source.Codes
import Verif.Source.OldText
/-!
# Reading the file that is not part of the crate

`src/instruction/opcode.rs` has three methods, each a `match self` from names of opcodes to a name or a text.
-/

namespace Raki.Source

/-- The value of an arm: `t::c` or a text. -/
inductive OldValue where
  | path (t c : Nat)
  | text (s : List Nat)

/-- An arm: the opcodes it lists and its value. -/
structure OldArm where
  names : List Nat
  value : OldValue

/-- The value of an arm. -/
def oldRhs : List Tok → Option (OldValue × List Tok)
  | .name t :: .op .colon2 :: .name c :: .op .comma :: ts => some (.path t c, ts)
  | .op .lbrace :: .name t :: .op .colon2 :: .name c :: .op .rbrace :: ts => some (.path t c, ts)
  | .str s :: .op .comma :: ts => some (.text s, ts)
  | _ => none

/-- The arms of a `match` on names `OpcodeKind::x`, up to its closing brace; `o` is the number `OpcodeKind` spells and
`xs` are the names listed so far, backwards. -/
def oldArms (o : Nat) : Nat → List Tok → List Nat → Option (List OldArm × List Tok)
  | 0, _, _ => none
  | _ + 1, .op .rbrace :: ts, [] => some ([], ts)
  | n + 1, .name p :: .op .colon2 :: .name x :: .op .bar :: ts, xs => match Nat.beq p o with
    | true => oldArms o n ts (x :: xs)
    | false => none
  | n + 1, .name p :: .op .colon2 :: .name x :: .op .fatArrow :: ts, xs => match Nat.beq p o, oldRhs ts with
    | true, some (v, ts) => match oldArms o n ts [] with
      | some (as, ts) => some (⟨(x :: xs).reverse, v⟩ :: as, ts)
      | none => none
    | _, _ => none
  | _, _, _ => none

/-- From the parameters of a method to the end of its `match` on `self`, the number `s` spells. -/
def oldBody (o s : Nat) : List Tok → Option (List OldArm × List Tok)
  | .op .lbrace :: .kw .match :: .name x :: .op .lbrace :: ts => match Nat.beq x s with
    | true => oldArms o 1000 ts []
    | false => none
  | _ :: ts => oldBody o s ts
  | [] => none

/-- The methods `fn f(&self) -> .. { match self { .. } }`: name and arms. -/
def oldFns (o s : Nat) : Nat → List Tok → Option (List (Nat × List OldArm))
  | _, [] => some []
  | 0, _ => none
  | n + 1, .kw .fn :: .name f :: ts => match oldBody o s ts with
    | some (as, ts) => match oldFns o s n ts with
      | some fs => some ((f, as) :: fs)
      | none => none
    | none => none
  | n + 1, _ :: ts => oldFns o s n ts

/-- The methods of a file. -/
def oldMethods (o self : List Nat) (text : List (List Nat)) : Option (List (Nat × List OldArm)) :=
  match lexLines text with
  | some ts => oldFns (spell o 0) (spell self 0) 10000 ts
  | none => none

/-- What a method gives for an opcode: the value of the first arm that lists it. -/
def oldValue (x : Nat) : List OldArm → Option OldValue
  | [] => none
  | a :: as => match a.names.any (Nat.beq x) with
    | true => some a.value
    | false => oldValue x as

end Raki.Source
