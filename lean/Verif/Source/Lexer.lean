import Verif.Source.Words
/-!
# Cutting source text into tokens

The lexical rules of Rust, as far as the crate's files need them: `//` comments run to the end of the line,
a string literal ends at the next `"` of its line, a run of letters, digits and underscores is a word or a
number, and punctuation is taken as long as possible.  Anything else makes the lexer fail, as do the tokens of Rust
that the crate does not use and that begin like one it uses: `1.0`, `r"x"`, `'x'`, `&&`, `<=` and so on.
`Verif.Source.Lexical` states these rules without an algorithm, and C92 compares.
-/

namespace Raki.Source

/-- Punctuation. -/
inductive Op where
  | dotDotEq | colon2 | fatArrow | arrow | eqEq | ge | shr | shl | orEq | bars
  | plus | minus | star | amp | bar | lt | gt | eq | bang | quest | dot | comma | semi | colon
  | lparen | rparen | lbrace | rbrace | lbrack | rbrack | hash

/-- A token. -/
inductive Tok where
  /-- a keyword, or a name with a fixed meaning -/
  | kw (k : Kw)
  /-- any other name, as the number its characters spell -/
  | name (c : Nat)
  /-- a number and its suffix -/
  | num (n : Nat) (t : Option Ty)
  /-- a string literal, as character codes -/
  | str (s : List Nat)
  /-- a lifetime -/
  | life
  | op (o : Op)

/-- The number a run of characters spells in base 256. -/
def spell : List Nat → Nat → Nat
  | [], a => a
  | c :: cs, a => spell cs (a * 256 + c)

/-- The character codes of a line. -/
def codes (s : String) : List Nat := s.toList.map Char.toNat

/-- `c` is a decimal digit. -/
def isDigit (c : Nat) : Bool := (Nat.ble 48 c).and (Nat.ble c 57)

/-- `c` is a letter, a digit or an underscore. -/
def isWord (c : Nat) : Bool :=
  ((Nat.ble 97 c).and (Nat.ble c 122)).or
    (((Nat.ble 65 c).and (Nat.ble c 90)).or ((isDigit c).or (Nat.beq c 95)))

/-- The longest prefix made of word characters, and the rest. -/
def spanWord : List Nat → List Nat × List Nat
  | [] => ([], [])
  | c :: cs => match isWord c with
    | true => ((c :: (spanWord cs).1), (spanWord cs).2)
    | false => ([], c :: cs)

/-- The text up to the next `"` (34), and what follows it; escapes (92) are not used by the crate. -/
def spanStr : List Nat → Option (List Nat × List Nat)
  | [] => none
  | c :: cs => match Nat.beq c 34, Nat.beq c 92 with
    | true, _ => some ([], cs)
    | _, true => none
    | false, false => match spanStr cs with
      | some (s, r) => some (c :: s, r)
      | none => none

/-- The value of a digit in base 16. -/
def digit (c : Nat) : Option Nat :=
  match isDigit c, (Nat.ble 97 c).and (Nat.ble c 102) with
  | true, _ => some (c - 48)
  | false, true => some (c - 87)
  | false, false => none

/-- The digits of a number in base `b`, up to a suffix starting with `u` (117) or `i` (105); underscores
(95) are skipped. -/
def digits (b : Nat) : List Nat → Nat → Option (Nat × Option Ty)
  | [], a => some (a, none)
  | c :: cs, a => match Nat.beq c 95, (Nat.beq c 117).or (Nat.beq c 105) with
    | true, _ => digits b cs a
    | false, true => match words.find (spell (c :: cs) 0) with
      | some (.id .u8) => some (a, some .u8)
      | some (.id .u16) => some (a, some .u16)
      | some (.id .u32) => some (a, some .u32)
      | some (.id .usize) => some (a, some .usize)
      | some (.id .i32) => some (a, some .i32)
      | _ => none
    | false, false => match digit c with
      | some d => match Nat.blt d b with
        | true => digits b cs (a * b + d)
        | false => none
      | none => none

/-- There is a digit, perhaps after underscores. -/
def started : List Nat → Bool
  | [] => false
  | c :: cs => match Nat.beq c 95 with
    | true => started cs
    | false => (digit c).isSome

/-- The number with digits in base `b`. -/
def based (b : Nat) (cs : List Nat) : Option Tok :=
  match started cs, digits b cs 0 with
  | true, some (n, t) => some (.num n t)
  | _, _ => none

/-- A number: `0b..`, `0x..` or decimal. -/
def number : List Nat → Option Tok
  | 48 :: 98 :: cs => based 2 cs
  | 48 :: 120 :: cs => based 16 cs
  | cs => based 10 cs

/-- A word: a keyword or a name. -/
def word (cs : List Nat) : Tok :=
  match words.find (spell cs 0) with
  | some (.kw k) => .kw k
  | _ => .name (spell cs 0)

/-- Punctuation of one character. -/
def op1 : Nat → Option Op
  | 33 => some .bang | 35 => some .hash | 38 => some .amp | 40 => some .lparen | 41 => some .rparen
  | 42 => some .star | 43 => some .plus | 44 => some .comma | 45 => some .minus | 46 => some .dot
  | 58 => some .colon | 59 => some .semi | 60 => some .lt | 61 => some .eq | 62 => some .gt
  | 63 => some .quest | 91 => some .lbrack | 93 => some .rbrack | 123 => some .lbrace
  | 124 => some .bar | 125 => some .rbrace | _ => none

/-- Punctuation of two characters. -/
def op2 : Nat → Nat → Option Op
  | 58, 58 => some .colon2 | 61, 62 => some .fatArrow | 45, 62 => some .arrow | 61, 61 => some .eqEq
  | 62, 61 => some .ge | 62, 62 => some .shr | 60, 60 => some .shl | 124, 61 => some .orEq
  | 124, 124 => some .bars | _, _ => none

/-- Punctuation of two characters that the crate does not use: `&&`, `!=`, `<=`, `<-`, `+=`, `-=`, `*=`, `&=`, `..`. -/
def other2 : Nat → Nat → Bool
  | 38, 38 | 33, 61 | 60, 61 | 60, 45 | 43, 61 | 45, 61 | 42, 61 | 38, 61 | 46, 46 => true
  | _, _ => false

/-- Punctuation of three characters that the crate does not use: `<<=` and `>>=`. -/
def other3 : Op → List Nat → Bool
  | .shl, 61 :: _ | .shr, 61 :: _ => true
  | _, _ => false

/-- The longest punctuation at the start, and the rest. -/
def punct : List Nat → Option (Op × List Nat)
  | 46 :: 46 :: 61 :: cs => some (.dotDotEq, cs)
  | c :: d :: cs => match op2 c d with
    | some o => match other3 o cs with
      | true => none
      | false => some (o, cs)
    | none => match other2 c d with
      | true => none
      | false => match op1 c with
        | some o => some (o, d :: cs)
        | none => none
  | [c] => match op1 c with
    | some o => some (o, [])
    | none => none
  | [] => none

/-- A word character stands first. -/
def startsWord : List Nat → Bool
  | [] => false
  | c :: _ => isWord c

/-- The text goes on with `"` (34), `'` (39) or `#` (35), which would make a word before it part of another token. -/
def quoted : List Nat → Bool
  | 34 :: _ | 39 :: _ | 35 :: _ => true
  | _ => false

/-- The text goes on with a dot that a number before it takes with it, unless it begins `..` or `.name`. -/
def dotted : List Nat → Bool
  | [46] => true
  | 46 :: c :: _ => match Nat.beq c 46, isWord c, isDigit c with
    | true, _, _ => false
    | false, true, false => false
    | _, _, _ => true
  | _ => false

/-- A name stands first. -/
def startsName : List Nat → Bool
  | [] => false
  | c :: _ => (isWord c).and (isDigit c).not

/-- Put a token before the tokens of the rest of the line. -/
def consTok (t : Tok) : Option (List Tok) → Option (List Tok)
  | some ts => some (t :: ts)
  | none => none

/-- The tokens of a line that begins with the character `c`; `go` cuts what is behind the first one. -/
def lexStep (go : List Nat → Option (List Tok)) (c : Nat) (cs : List Nat) : Option (List Tok) :=
  match Nat.beq c 32 with
  | true => go cs
  | false => match isWord c with
    | true => match quoted (spanWord cs).2, isDigit c, dotted (spanWord cs).2 with
      | true, _, _ => none
      | false, true, true => none
      | false, true, false => match number (c :: (spanWord cs).1) with
        | some t => consTok t (go (spanWord cs).2)
        | none => none
      | false, false, _ => consTok (word (c :: (spanWord cs).1)) (go (spanWord cs).2)
    | false => match c, cs with
      | 47, 47 :: _ => some []
      | 34, _ => match spanStr cs with
        | some (s, r) => match startsWord r with
          | true => none
          | false => consTok (.str s) (go r)
        | none => none
      | 39, _ => match startsName cs, quoted (spanWord cs).2 with
        | true, false => consTok .life (go (spanWord cs).2)
        | _, _ => none
      | _, _ => match punct (c :: cs) with
        | some (o, r) => consTok (.op o) (go r)
        | none => none

/-- The tokens of one line; the first argument bounds their number. -/
def lexLine : Nat → List Nat → Option (List Tok)
  | _, [] => some []
  | 0, _ :: _ => none
  | n + 1, c :: cs => lexStep (lexLine n) c cs

/-- The tokens of a file, line by line. -/
def lexLines : List (List Nat) → Option (List Tok)
  | [] => some []
  | l :: ls => match lexLine 400 l with
    | some ts => match lexLines ls with
      | some us => some (ts ++ us)
      | none => none
    | none => none

end Raki.Source
