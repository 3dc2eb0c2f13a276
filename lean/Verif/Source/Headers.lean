import Verif.Source.Parser
import Verif.Source.Signatures
/-!
# Reading the types of functions and fields

The parser of `Verif.Source.Parser` drops the names of types, which the evaluator does not need.  The reader below
keeps them, and skips the bodies instead: from the tokens of the files it finds what type each function and each field
is declared with.  References and lifetimes are dropped, and so is the formatter that `fmt` functions take.
-/

set_option linter.constructorNameAsVariable false

namespace Raki.Source

/-- A type as it is written. -/
inductive TyName where
  /-- `Self` -/
  | self
  /-- `Self::x` -/
  | member (x : Nat)
  /-- `fmt::Result` -/
  | text
  /-- `x` -/
  | plain (x : Nat)
  /-- `x<a>` -/
  | one (x : Nat) (a : TyName)
  /-- `x<a, b>` -/
  | two (x : Nat) (a b : TyName)
  /-- `[a]` -/
  | slice (a : TyName)

/-- `fmt::Result`? -/
def isText (m n : Nat) : Bool :=
  match ident m, ident n with
  | some .fmt, some .Result => true
  | _, _ => false

/-- A type; the number bounds its nesting. -/
def tyNameP : Nat → P TyName
  | 0, _ => none
  | k + 1, ts => match skipRefs ts with
    | .op .lbrack :: ts => do
      let (t, ts) ← tyNameP k ts
      let ts ← want .rbrack ts
      some (.slice t, ts)
    | .kw .Self :: .op .colon2 :: .name x :: ts => some (.member x, ts)
    | .kw .Self :: ts => some (.self, ts)
    | .name m :: .op .colon2 :: .name n :: ts => (match isText m n with
      | true => some (.text, ts)
      | false => none)
    | .name x :: .op .lt :: ts => do
      let (a, ts) ← tyNameP k ts
      match ts with
      | .op .gt :: ts => some (.one x a, ts)
      | .op .comma :: ts => do
        let (b, ts) ← tyNameP k ts
        let ts ← want .gt ts
        some (.two x a b, ts)
      | _ => none
    | .name x :: ts => some (.plain x, ts)
    | _ => none

/-- What is said of a function before its body: its name, its type parameter and the trait it must implement, its
parameters and its result. -/
structure Header where
  name : Nat
  generic : Option (Nat × Nat)
  params : List TyName
  ret : Option TyName

/-- Parameters, up to the closing parenthesis.  The formatter `f` is left out. -/
def headParams : Nat → P (List TyName)
  | 0, _ => none
  | k + 1, ts => match skipRefs ts with
    | .op .rparen :: ts => some ([], ts)
    | .kw .f :: .op .colon :: ts => do
      let (_, ts) ← tyNameP 10 ts
      let (_, ts) := eat .comma ts
      headParams k ts
    | .name _ :: .op .colon :: ts => do
      let (t, ts) ← tyNameP 10 ts
      let (_, ts) := eat .comma ts
      let (ps, ts) ← headParams k ts
      some (t :: ps, ts)
    | .name x :: ts => (match ident x with
      | some .self => do
        let (_, ts) := eat .comma ts
        let (ps, ts) ← headParams k ts
        some (.self :: ps, ts)
      | _ => none)
    | _ => none

/-- A type parameter, if any. -/
def headGeneric : P (Option (Nat × Nat))
  | .op .lt :: .name t :: .op .colon :: .name b :: .op .gt :: ts => some (some (t, b), ts)
  | .op .lt :: _ => none
  | ts => some (none, ts)

/-- A result type, if any. -/
def headRet : P (Option TyName)
  | .op .arrow :: ts => (tyNameP 10 ts).map fun (t, ts) => (some t, ts)
  | ts => some (none, ts)

/-- The header of a function, from its name on, and whether it has a body, which is skipped. -/
def headerP : P (Header × Bool)
  | .name f :: ts => do
    let (g, ts) ← headGeneric ts
    let ts ← want .lparen ts
    let (ps, ts) ← headParams 20 ts
    let (t, ts) ← headRet ts
    match ts with
    | .op .semi :: ts => some ((⟨f, g, ps, t⟩, false), ts)
    | .op .lbrace :: ts => do
      let ts ← skipBraces 1 ts
      some ((⟨f, g, ps, t⟩, true), ts)
    | _ => none
  | _ => none

/-- The fields of a struct. -/
def headFields : Nat → P (List (Nat × TyName))
  | 0, _ => none
  | k + 1, ts => do
    let ts ← skipAttrs 0 ts
    match ts with
    | .op .rbrace :: ts => some ([], ts)
    | .kw .pub :: .name x :: .op .colon :: ts => do
      let (t, ts) ← tyNameP 10 ts
      let (_, ts) := eat .comma ts
      let (xs, ts) ← headFields k ts
      some ((x, t) :: xs, ts)
    | _ => none

/-- What the files declare. -/
structure Heads where
  /-- the type or module a function belongs to, and the function -/
  fns : List (Nat × Header)
  /-- the trait, and a function it declares; whether with a body -/
  traits : List (Nat × Header × Bool)
  /-- `impl trait for type` -/
  impls : List (Nat × Nat)
  /-- the type, and `type x = t;` in an `impl` for it -/
  members : List (Nat × Nat × TyName)
  structs : List (Nat × List (Nat × TyName))

/-- Items up to a closing brace or the end of the file, given their module, the type or module that owns them, and the
trait they belong to.  What is marked `cfg(test)` is skipped. -/
def headsP : Nat → Nat → Nat → Option Nat → Heads → P Heads
  | 0, _, _, _, _, _ => none
  | k + 1, md, o, inTrait, d, ts => do
    let ((_, t), ts) ← attrsP 10 ts
    let ts := match ts with
      | .kw .pub :: ts => ts
      | ts => ts
    match t, ts with
    | true, ts => do
      let ts ← skipTo .lbrace ts
      let ts ← skipBraces 1 ts
      headsP k md o inTrait d ts
    | false, ts => match ts with
    | [] => some (d, [])
    | .op .rbrace :: _ => some (d, ts)
    | .kw .use :: ts => do
      let ts ← skipTo .semi ts
      headsP k md o inTrait d ts
    | .kw .type :: .name x :: .op .eq :: ts => do
      let (t, ts) ← tyNameP 10 ts
      let ts ← want .semi ts
      headsP k md o inTrait { d with members := d.members ++ [(o, x, t)] } ts
    | .kw .mod :: .name _ :: .op .semi :: ts => headsP k md o inTrait d ts
    | .kw .mod :: .name m :: .op .lbrace :: ts => do
      let (d, ts) ← headsP k md (joinName md m) none d ts
      let ts ← want .rbrace ts
      headsP k md o inTrait d ts
    | .kw .enum :: .name _ :: .op .lbrace :: ts => do
      let ts ← skipBraces 1 ts
      headsP k md o inTrait d ts
    | .kw .struct :: .name s :: .op .lbrace :: ts => do
      let (fs, ts) ← headFields 50 ts
      headsP k md o inTrait { d with structs := d.structs ++ [(s, fs)] } ts
    | .kw .trait :: .name t :: .op .lbrace :: ts => do
      let (d, ts) ← headsP k md t (some t) d ts
      let ts ← want .rbrace ts
      headsP k md o inTrait d ts
    | .kw .impl :: .name a :: ts => do
      let ts ← generics ts
      match ts with
      | .kw .for :: .name t :: .op .lbrace :: ts => do
        let (d, ts) ← headsP k md t none { d with impls := d.impls ++ [(a, t)] } ts
        let ts ← want .rbrace ts
        headsP k md o inTrait d ts
      | .op .lbrace :: ts => do
        let (d, ts) ← headsP k md a none d ts
        let ts ← want .rbrace ts
        headsP k md o inTrait d ts
      | _ => none
    | .kw .fn :: ts => do
      let ((h, b), ts) ← headerP ts
      match inTrait with
      | none => headsP k md o inTrait { d with fns := d.fns ++ [(o, h)] } ts
      | some t => headsP k md o inTrait { d with traits := d.traits ++ [(t, h, b)] } ts
    | _ => none

/-- Read a list of files. -/
def headFiles : List (Nat × List Tok) → Heads → Option Heads
  | [], d => some d
  | (m, ts) :: fs, d => do
    let (d, ts) ← headsP 200 m m none d ts
    match ts with
    | [] => headFiles fs d
    | _ => none

/-- The type a name stands for where no type parameter has that name. -/
def plainT (x : Nat) : Option T :=
  match Nat.beq x (spell [115, 116, 114] 0) with
  | true => some .str
  | false => match ident x with
    | some .u8 => some (.num .u8 true)
    | some .u16 => some (.num .u16 true)
    | some .u32 => some (.num .u32 true)
    | some .usize => some (.num .usize true)
    | some .i32 => some (.num .i32 true)
    | some i => (match types.any fun d => same d.name i with
      | true => some (.named i)
      | false => none)
    | none => match Nat.beq x (spell [98, 111, 111, 108] 0) with
      | true => some .bool
      | false => none

/-- The type that is written, given what `Self` and the type parameter stand for. -/
def TyName.read (d : Heads) (o : Nat) (g : Option (Nat × T)) : TyName → Option T
  | .self => plainT o
  | .member x => (d.members.find? fun m => (Nat.beq m.1 o).and (Nat.beq m.2.1 x)).bind fun m =>
    match m.2.2 with
    | .plain y => plainT y
    | _ => none
  | .text => some .text
  | .plain x => (match g with
    | some (y, t) => (match Nat.beq x y with
      | true => some t
      | false => plainT x)
    | none => plainT x)
  | .one x a => (match ident x with
    | some .Option => (a.read d o g).map .option
    | _ => none)
  | .two x a b => (match ident x with
    | some .Result => (a.read d o g).bind fun s => (b.read d o g).map fun t => .result s t
    | _ => none)
  | .slice a => (a.read d o g).map .array

/-- The types of a list. -/
def readAll (d : Heads) (o : Nat) (g : Option (Nat × T)) : List TyName → Option (List T)
  | [] => some []
  | t :: ts => (t.read d o g).bind fun a => (readAll d o g ts).map (a :: ·)

/-- The type of a function of `o`, given what its type parameter stands for. -/
def Header.at (d : Heads) (o : Nat) (g : Option (Nat × T)) (h : Header) : Option (List T × T) :=
  (readAll d o g h.params).bind fun ps => match h.ret with
    | some r => (r.read d o g).map fun r => (ps, r)
    | none => some (ps, .unit)

/-- The types of a function of `o`: if it has a type parameter, one for each type that implements the trait. -/
def Header.types (d : Heads) (o : Nat) (h : Header) : Option (List (List T × T)) :=
  match h.generic with
  | none => (h.at d o none).map fun t => [t]
  | some (x, b) => (d.impls.filter fun i => Nat.beq i.1 b).mapM fun i =>
    (plainT i.2).bind fun a => h.at d o (some (x, a))

/-- Does `o` define the function `f` itself? -/
def Heads.defines (d : Heads) (o f : Nat) : Bool := d.fns.any fun p => (Nat.beq p.1 o).and (Nat.beq p.2.name f)

/-- The functions, those a type inherits from a trait at the end. -/
def Heads.all (d : Heads) : List (Nat × Header) :=
  d.fns ++ d.traits.flatMap fun (t, h, b) => (match b with
    | true => d.impls.filterMap fun (u, a) => (match Nat.beq t u, d.defines a h.name with
      | true, false => some (a, h)
      | _, _ => none)
    | false => [])

/-- The functions that are declared, with their owners and types. -/
def Heads.sigs (d : Heads) : Option (List (Id × Id × List (List T × T))) :=
  d.all.mapM fun (o, h) => (ident o).bind fun i => (ident h.name).bind fun f =>
    (h.types d o).map fun l => (i, f, l)

/-- The structs that are declared, with their fields. -/
def Heads.records (d : Heads) : Option (List (Id × List (Id × T))) :=
  d.structs.mapM fun (s, fs) => (ident s).bind fun i =>
    (fs.mapM fun (x, t) => (ident x).bind fun x => (TyName.read d s none t).map fun t => (x, t)).map fun fs => (i, fs)

/-- What the traits ask of the types that implement them: the type, and the function as the trait declares it. -/
def Heads.required (d : Heads) : List (Nat × Header) :=
  d.impls.flatMap fun (u, a) => d.traits.filterMap fun (t, h, _) => (match Nat.beq t u with
    | true => some (a, h)
    | false => none)

/-- The types of the function `f` of `o`. -/
def Heads.provided (d : Heads) (o f : Nat) : Option (List (List T × T)) :=
  (d.all.find? fun p => (Nat.beq p.1 o).and (Nat.beq p.2.name f)).bind fun p => p.2.types d o

/-- What files declare, from character codes. -/
def headCodes (fs : List (Nat × List (List Nat))) : Option Heads :=
  (lexFiles fs).bind fun us => headFiles us ⟨[], [], [], [], []⟩

/-- What files declare, from their lines. -/
def headsOf (fs : List (String × List String)) : Option Heads :=
  headCodes (fs.map fun (m, ls) => (spell (codes m) 0, ls.map codes))

end Raki.Source
