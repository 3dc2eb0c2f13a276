import Verif.Source.Lexer
/-!
# What the tokens of a line are

The lexical rules of Rust, stated without an algorithm.  `Means us t` says that the characters `us` are the token `t`.
`Lexeme us rest` says that `us`, followed by `rest`, begins a token of Rust, whether or not the crate's files use such
tokens.  A line is cut so that no token could have been longer (`Line`).

Lines are lists of character codes, `codes s` for the string `s`.  `/repo` has no lexer; this is the part of the Rust
Reference, chapter "Lexical structure", that decides how its files are cut.
-/

set_option linter.constructorNameAsVariable false

namespace Raki.Source

/-- The codes of some characters. -/
def chars (cs : List Char) : List Nat := cs.map Char.toNat

/-- `c` is the code of a digit. -/
def Digit (c : Nat) : Prop := '0'.toNat ≤ c ∧ c ≤ '9'.toNat

/-- `c` is the code of a letter, a digit or `_`. -/
def WordChar (c : Nat) : Prop :=
  ('a'.toNat ≤ c ∧ c ≤ 'z'.toNat) ∨ ('A'.toNat ≤ c ∧ c ≤ 'Z'.toNat) ∨ Digit c ∨ c = '_'.toNat

/-- A word or number. -/
def Run (us : List Nat) : Prop := us ≠ [] ∧ ∀ c ∈ us, WordChar c

/-- A word: it does not begin with a digit. -/
def Named (us : List Nat) : Prop := Run us ∧ ∀ c ∈ us.head?, ¬ Digit c

/-- How punctuation is written. -/
def Op.text : Op → List Char
  | .dotDotEq => ['.', '.', '='] | .colon2 => [':', ':'] | .fatArrow => ['=', '>'] | .arrow => ['-', '>']
  | .eqEq => ['=', '='] | .ge => ['>', '='] | .shr => ['>', '>'] | .shl => ['<', '<'] | .orEq => ['|', '=']
  | .bars => ['|', '|'] | .plus => ['+'] | .minus => ['-'] | .star => ['*'] | .amp => ['&'] | .bar => ['|']
  | .lt => ['<'] | .gt => ['>'] | .eq => ['='] | .bang => ['!'] | .quest => ['?'] | .dot => ['.'] | .comma => [',']
  | .semi => [';'] | .colon => [':'] | .lparen => ['('] | .rparen => [')'] | .lbrace => ['{'] | .rbrace => ['}']
  | .lbrack => ['['] | .rbrack => [']'] | .hash => ['#']

/-- The other punctuation of Rust. -/
def otherOps : List (List Char) :=
  [['&', '&'], ['!', '='], ['<', '='], ['<', '-'], ['+', '='], ['-', '='], ['*', '='], ['/', '='], ['%', '='],
    ['^', '='], ['&', '='], ['<', '<', '='], ['>', '>', '='], ['.', '.'], ['.', '.', '.'], ['/'], ['%'], ['^'], ['@'],
    ['~'], ['$']]

/-- How a keyword, or a name with a fixed meaning, is written. -/
def Kw.text : Kw → List Char
  | .«fn» => ['f', 'n'] | .«let» => ['l', 'e', 't'] | .«mut» => ['m', 'u', 't'] | .«if» => ['i', 'f']
  | .«else» => ['e', 'l', 's', 'e'] | .«match» => ['m', 'a', 't', 'c', 'h']
  | .«return» => ['r', 'e', 't', 'u', 'r', 'n'] | .use => ['u', 's', 'e'] | .mod => ['m', 'o', 'd']
  | .«type» => ['t', 'y', 'p', 'e'] | .enum => ['e', 'n', 'u', 'm'] | .struct => ['s', 't', 'r', 'u', 'c', 't']
  | .trait => ['t', 'r', 'a', 'i', 't'] | .impl => ['i', 'm', 'p', 'l'] | .«for» => ['f', 'o', 'r']
  | .«in» => ['i', 'n'] | .pub => ['p', 'u', 'b'] | .«as» => ['a', 's'] | .«true» => ['t', 'r', 'u', 'e']
  | .«false» => ['f', 'a', 'l', 's', 'e'] | .Self => ['S', 'e', 'l', 'f'] | .assert => ['a', 's', 's', 'e', 'r', 't']
  | .unreachable => ['u', 'n', 'r', 'e', 'a', 'c', 'h', 'a', 'b', 'l', 'e'] | .panic => ['p', 'a', 'n', 'i', 'c']
  | .write => ['w', 'r', 'i', 't', 'e'] | .f => ['f'] | .unwrap => ['u', 'n', 'w', 'r', 'a', 'p']
  | .expect => ['e', 'x', 'p', 'e', 'c', 't'] | .into => ['i', 'n', 't', 'o'] | .pow => ['p', 'o', 'w']
  | .iter => ['i', 't', 'e', 'r'] | .rev => ['r', 'e', 'v']
  | .enumerate => ['e', 'n', 'u', 'm', 'e', 'r', 'a', 't', 'e'] | .«from» => ['f', 'r', 'o', 'm']
  | .derive => ['d', 'e', 'r', 'i', 'v', 'e'] | .Copy => ['C', 'o', 'p', 'y'] | .Clone => ['C', 'l', 'o', 'n', 'e']
  | .Debug => ['D', 'e', 'b', 'u', 'g'] | .PartialEq => ['P', 'a', 'r', 't', 'i', 'a', 'l', 'E', 'q']
  | .cfg => ['c', 'f', 'g'] | .test => ['t', 'e', 's', 't']
  | .assert_eq => ['a', 's', 's', 'e', 'r', 't', '_', 'e', 'q']
  | .assert_ne => ['a', 's', 's', 'e', 'r', 't', '_', 'n', 'e'] | .matches => ['m', 'a', 't', 'c', 'h', 'e', 's']
  | .unwrap_or_else => ['u', 'n', 'w', 'r', 'a', 'p', '_', 'o', 'r', '_', 'e', 'l', 's', 'e']
  | .std => ['s', 't', 'd'] | .Location => ['L', 'o', 'c', 'a', 't', 'i', 'o', 'n']
  | .caller => ['c', 'a', 'l', 'l', 'e', 'r']

/-- The text of a string literal without escapes: no `"` and no `\`. -/
def Plain (s : List Nat) : Prop := ∀ c ∈ s, c ≠ '"'.toNat ∧ c ≠ '\\'.toNat

/-- `us`, if `rest` follows, is a token of Rust or begins one that is longer.  (Tokens that begin like none of the
crate's, as literals with `\` in them, are left out.) -/
inductive Lexeme : List Nat → List Nat → Prop
  /-- words, and numbers with any suffix -/
  | run {us rest} : Run us → Lexeme us rest
  /-- `r"..."`, `b'.'`, `r#..` and the like -/
  | quoted {us rest} {q} : Run us → q ∈ chars ['"', '\'', '#'] → Lexeme (us ++ [q]) rest
  /-- `1.5` and `1.`, but not the number in `1..=2` and in `1.pow(2)` -/
  | float {us rest} : Run us → (∀ c ∈ us.head?, Digit c) →
      (∀ c ∈ rest.head?, c ≠ '.'.toNat ∧ (WordChar c → Digit c)) → Lexeme (us ++ chars ['.']) rest
  /-- strings, with any suffix -/
  | str {s vs rest} : Plain s → (∀ c ∈ vs, WordChar c) → Lexeme (chars ['"'] ++ s ++ chars ['"'] ++ vs) rest
  /-- lifetimes -/
  | life {us rest} : Run us → Lexeme (chars ['\''] ++ us) rest
  /-- `'x'` and `'r#x` -/
  | char {us rest} {q} : Run us → q ∈ chars ['"', '\'', '#'] → Lexeme (chars ['\''] ++ us ++ [q]) rest
  | op {rest} (o : Op) : Lexeme (chars o.text) rest
  | other {rest} {o} : o ∈ otherOps → Lexeme (chars o) rest

/-- Digits in base `b` with underscores among them, and their value. -/
inductive Digits (b : Nat) : List Nat → Nat → Prop
  | nil : Digits b [] 0
  | digit {us n d} : Digits b us n → d < b → Digits b (us ++ chars [d.digitChar]) (n * b + d)
  | under {us n} : Digits b us n → Digits b (us ++ chars ['_']) n

/-- The suffix of a number. -/
inductive Suffix : List Nat → Option Ty → Prop
  | none : Suffix [] none
  | u8 : Suffix (chars ['u', '8']) (some .u8)
  | u16 : Suffix (chars ['u', '1', '6']) (some .u16)
  | u32 : Suffix (chars ['u', '3', '2']) (some .u32)
  | usize : Suffix (chars ['u', 's', 'i', 'z', 'e']) (some .usize)
  | i32 : Suffix (chars ['i', '3', '2']) (some .i32)

/-- What a number begins with, by its base. -/
inductive Base : List Nat → Nat → Prop
  | two : Base (chars ['0', 'b']) 2
  | ten : Base [] 10
  | sixteen : Base (chars ['0', 'x']) 16

/-- The characters `us` are the token `t`. -/
inductive Means : List Nat → Tok → Prop
  | kw (k : Kw) : Means (chars k.text) (.kw k)
  | name {us} : Named us → (∀ k : Kw, chars k.text ≠ us) → Means us (.name (spell us 0))
  | num {ps ds ss b n t} : Base ps b → Digits b ds n → (∃ c ∈ ds, c ≠ '_'.toNat) → Suffix ss t →
      (∀ c ∈ (ps ++ ds).head?, Digit c) → Means (ps ++ ds ++ ss) (.num n t)
  | str {s} : Plain s → Means (chars ['"'] ++ s ++ chars ['"']) (.str s)
  | life {us} : Named us → Means (chars ['\''] ++ us) .life
  | op (o : Op) : Means (chars o.text) (.op o)

/-- No token of Rust begins here that is longer than `us`. -/
def Longest (us rest : List Nat) : Prop := ∀ vs ws, rest = vs ++ ws → vs ≠ [] → ¬ Lexeme (us ++ vs) ws

/-- The tokens of a line, without spaces and comments. -/
inductive Line : List Nat → List Tok → Prop
  | nil : Line [] []
  | space {us ts} : Line us ts → Line (chars [' '] ++ us) ts
  | comment {us} : Line (chars ['/', '/'] ++ us) []
  | token {us rest t ts} : Means us t → Longest us rest → Line rest ts → Line (us ++ rest) (t :: ts)

/-- The tokens of a file, line by line; no token of the crate goes over two lines. -/
inductive Lines : List (List Nat) → List Tok → Prop
  | nil : Lines [] []
  | cons {l ls ts us} : Line l ts → Lines ls us → Lines (l :: ls) (ts ++ us)

/-- The tokens of files with their names. -/
inductive Tokens : List (Nat × List (List Nat)) → List (Nat × List Tok) → Prop
  | nil : Tokens [] []
  | cons {m ls ts fs us} : Lines ls ts → Tokens fs us → Tokens ((m, ls) :: fs) ((m, ts) :: us)

end Raki.Source
