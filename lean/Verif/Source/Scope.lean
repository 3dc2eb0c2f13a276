import Verif.Source.Parser
/-!
# Names and the modules they belong to

The parser of `Verif.Source.Parser` drops `mod`, `use` and `pub`, and finds the owner of a function by a short list of
modules.  The reader below keeps exactly these: for each module what it declares, what it imports, what of this is
public, and every path that is mentioned in it.  `resolve` then gives the rules of Rust for finding what a path stands
for.
-/

set_option linter.constructorNameAsVariable false

namespace Raki.Source

/-- The kinds of items. -/
inductive ItemSort where
  | type
  | trait
  | fn

/-- Equal kinds. -/
def ItemSort.same : ItemSort → ItemSort → Bool
  | .type, .type => true
  | .trait, .trait => true
  | .fn, .fn => true
  | _, _ => false

/-- An item of a module: whether it is public, what it is and its name. -/
structure Item where
  pub : Bool
  sort : ItemSort
  name : Nat

/-- Names that are written one after another with `::` between them, and where: the type or module that owns the
function, and what the function imports and the names it binds itself. -/
structure Mention where
  owner : Nat
  uses : List (List Nat)
  lets : List Nat
  path : List Nat

/-- An `impl`: the trait, if any, the type, and the functions with whether they are public. -/
structure Impl where
  trait : Option Nat
  type : Nat
  fns : List (Bool × Nat)

/-- What is said in a module, apart from the modules inside it. -/
structure Module where
  /-- the names of the modules it is inside of, from the root, and its own -/
  path : List Nat
  /-- the names that the parser gives its file and itself -/
  file : Nat
  owner : Nat
  /-- the modules directly inside, with whether they are public, and whether their text is in a file of its own -/
  mods : List (Bool × Bool × Nat)
  items : List Item
  /-- what it imports, with whether others may import it from here -/
  uses : List (Bool × List Nat)
  mentions : List Mention
  impls : List Impl
  /-- the traits with their functions -/
  traits : List (Nat × List Nat)

/-- A module without content. -/
def Module.new (path : List Nat) (file owner : Nat) : Module := ⟨path, file, owner, [], [], [], [], [], []⟩

/-! ## Reading -/

/-- The tokens before the first of this kind, and those after it. -/
def splitTo (o : Op) : List Tok → Option (List Tok × List Tok)
  | [] => none
  | t :: ts => match want o (t :: ts) with
    | some us => some ([], us)
    | none => match splitTo o ts with
      | some (as, us) => some (t :: as, us)
      | none => none

/-- `self`, `super`, `crate` and `core`. -/
def selfName : Nat := spell [115, 101, 108, 102] 0
def superName : Nat := spell [115, 117, 112, 101, 114] 0
def crateName : Nat := spell [99, 114, 97, 116, 101] 0
def coreName : Nat := spell [99, 111, 114, 101] 0

/-- The paths of a `use`, after the names that all of them share.  The last name is the one that is bound; `self` stands
for the names before it. -/
def useP : Nat → List Nat → P (List (List Nat))
  | 0, _, _ => none
  | k + 1, pre, ts => match ts with
    | .op .lbrace :: ts => group k pre ts
    | .name a :: .op .colon2 :: ts => useP k (pre ++ [a]) ts
    | .name a :: ts => (match Nat.beq a selfName with
      | true => some ([pre], ts)
      | false => some ([pre ++ [a]], ts))
    | _ => none
where
  /-- Several, up to the closing brace. -/
  group : Nat → List Nat → P (List (List Nat))
  | 0, _, _ => none
  | k + 1, pre, ts => match ts with
    | .op .rbrace :: ts => some ([], ts)
    | ts => do
      let (us, ts) ← useP k pre ts
      let (_, ts) := eat .comma ts
      let (vs, ts) ← group k pre ts
      some (us ++ vs, ts)

/-- Equal paths. -/
def samePath : List Nat → List Nat → Bool
  | [], [] => true
  | a :: p, b :: q => (Nat.beq a b).and (samePath p q)
  | _, _ => false

/-- What is found in a piece of text: paths, names that `let` binds, and imports. -/
structure Scan where
  paths : List (List Nat)
  lets : List Nat
  uses : List (List Nat)

/-- Add a path that is complete, unless it is there already. -/
def Scan.flush (s : Scan) : Option (List Nat) → Scan
  | none => s
  | some p => match s.paths.any (samePath p) with
    | true => s
    | false => { s with paths := p :: s.paths }

/-- The paths in a piece of text, up to the brace that closes it or a semicolon outside of braces.  Names after a dot
are left out, and so are those after `Self::` and the name of a function that is declared.  The first argument counts the
open braces, the second says that this is inside a `use`, and the third is the path that is being read.  A `use` inside
a block makes the reader fail, except in the block that is the body of a function. -/
def scan : Nat → Bool → Option (List Nat) → Scan → List Tok → Option (Scan × List Tok)
  | _, _, _, _, [] => none
  | d, true, _, s, .op .semi :: ts => scan d false none s ts
  | d, true, _, s, _ :: ts => scan d true none s ts
  | 0, false, acc, s, .op .semi :: ts => some (s.flush acc, ts)
  | 1, false, _, s, .kw .use :: ts => (match useP 50 [] ts with
    | some (us, .op .semi :: _) => scan 1 true none { s with uses := us ++ s.uses } ts
    | _ => none)
  | _, false, _, _, .kw .use :: _ => none
  | d, false, acc, s, .op .lbrace :: ts => scan (d + 1) false none (s.flush acc) ts
  | 0, false, _, _, .op .rbrace :: _ => none
  | 1, false, acc, s, .op .rbrace :: ts => some (s.flush acc, ts)
  | d + 1, false, acc, s, .op .rbrace :: ts => scan d false none (s.flush acc) ts
  | d, false, acc, s, .op .dot :: .name _ :: ts => scan d false none (s.flush acc) ts
  | d, false, acc, s, .kw .fn :: .name _ :: ts => scan d false none (s.flush acc) ts
  | d, false, acc, s, .kw .«let» :: .kw .«mut» :: .name x :: ts =>
    scan d false (some [x]) { s.flush acc with lets := x :: (s.flush acc).lets } ts
  | d, false, acc, s, .kw .«let» :: .name x :: ts =>
    scan d false (some [x]) { s.flush acc with lets := x :: (s.flush acc).lets } ts
  | d, false, some p, s, .op .colon2 :: .name b :: ts => scan d false (some (p ++ [b])) s ts
  | d, false, none, s, .op .colon2 :: .name _ :: ts => scan d false none s ts
  | d, false, acc, s, .name a :: ts => scan d false (some [a]) (s.flush acc) ts
  | d, false, acc, s, _ :: ts => scan d false none (s.flush acc) ts

/-- Add what is found in a piece of text that is inside this many braces. -/
def Module.mention (m : Module) (owner depth : Nat) (ts : List Tok) : Option (Module × List Tok) :=
  match scan depth false none ⟨[], [], []⟩ ts with
  | some (s, ts) => some ({ m with mentions := (s.paths.map fun p => ⟨owner, s.uses, s.lets, p⟩) ++ m.mentions }, ts)
  | none => none

/-- Functions and associated types up to the closing brace, with whether they are public. -/
def methodsP : Nat → Nat → Module → P (Module × List (Bool × Nat))
  | 0, _, _, _ => none
  | k + 1, owner, m, ts => do
    let (_, ts) ← attrsP 10 ts
    let (v, ts) := match ts with
      | .kw .pub :: ts => (true, ts)
      | ts => (false, ts)
    match ts with
    | .op .rbrace :: ts => some ((m, []), ts)
    | .kw .type :: .name _ :: .op .eq :: ts => do
      let (m, ts) ← m.mention owner 0 ts
      methodsP k owner m ts
    | .kw .fn :: .name f :: ts => do
      let (m, ts) ← m.mention owner 0 ts
      let ((m, fs), ts) ← methodsP k owner m ts
      some ((m, (v, f) :: fs), ts)
    | _ => none

/-- Items up to a closing brace or the end of the file: the module, and the modules inside it.  `file` is the name that
the parser gives the file; `test` tells whether items marked `cfg(test)` are read. -/
def moduleP : Nat → Bool → Nat → Module → P (Module × List Module)
  | 0, _, _, _, _ => none
  | k + 1, test, file, m, ts => do
    let ((_, t), ts) ← attrsP 10 ts
    let (v, ts) := match ts with
      | .kw .pub :: ts => (true, ts)
      | ts => (false, ts)
    match t && !test, ts with
    | true, ts => do
      let ts ← skipTo .lbrace ts
      let ts ← skipBraces 1 ts
      moduleP k test file m ts
    | false, ts => match ts with
    | [] => some ((m, []), [])
    | .op .rbrace :: _ => some ((m, []), ts)
    | .kw .use :: ts => do
      let (us, ts) ← useP 50 [] ts
      let ts ← want .semi ts
      moduleP k test file { m with uses := m.uses ++ us.map (v, ·) } ts
    | .kw .mod :: .name c :: .op .semi :: ts => moduleP k test file { m with mods := m.mods ++ [(v, true, c)] } ts
    | .kw .mod :: .name c :: .op .lbrace :: ts => do
      let ((n, ns), ts) ← moduleP k test file (.new (m.path ++ [c]) file (joinName file c)) ts
      let ts ← want .rbrace ts
      let ((m, ms), ts) ← moduleP k test file { m with mods := m.mods ++ [(v, false, c)] } ts
      some ((m, n :: ns ++ ms), ts)
    | .kw .enum :: .name e :: .op .lbrace :: ts => do
      let (m, ts) ← Module.mention { m with items := m.items ++ [⟨v, .type, e⟩] } m.owner 1 ts
      moduleP k test file m ts
    | .kw .struct :: .name s :: .op .lbrace :: ts => do
      let (m, ts) ← Module.mention { m with items := m.items ++ [⟨v, .type, s⟩] } m.owner 1 ts
      moduleP k test file m ts
    | .kw .trait :: .name t :: .op .lbrace :: ts => do
      let ((m, fs), ts) ← methodsP 200 t { m with items := m.items ++ [⟨v, .trait, t⟩] } ts
      moduleP k test file { m with traits := m.traits ++ [(t, fs.map (·.2))] } ts
    | .kw .impl :: .name a :: ts => do
      let (g, ts) ← splitTo .lbrace ts
      let (m, _) ← m.mention m.owner 0 (.name a :: g ++ [.op .semi])
      match implTy g with
      | some t => do
        let ((m, fs), ts) ← methodsP 200 t m ts
        moduleP k test file { m with impls := m.impls ++ [⟨some a, t, fs⟩] } ts
      | none => do
        let ((m, fs), ts) ← methodsP 200 a m ts
        moduleP k test file { m with impls := m.impls ++ [⟨none, a, fs⟩] } ts
    | .kw .fn :: .name f :: ts => do
      let (m, ts) ← Module.mention { m with items := m.items ++ [⟨v, .fn, f⟩] } m.owner 0 ts
      moduleP k test file m ts
    | _ => none
where
  /-- The type after `for`, if any. -/
  implTy : List Tok → Option Nat
  | [.kw .for, .name t] => some t
  | _ :: ts => implTy ts
  | [] => none

/-- The modules of a list of files, given where they are in the tree of modules. -/
def modulesP (test : Bool) : List (List Nat) → List (Nat × List Tok) → Option (List Module)
  | [], [] => some []
  | p :: ps, (f, ts) :: fs => do
    let ((m, ms), ts) ← moduleP 200 test f (.new p f f) ts
    match ts with
    | [] => do
      let ns ← modulesP test ps fs
      some (m :: ms ++ ns)
    | _ => none
  | _, _ => none

/-- The modules of a crate, from character codes. -/
def moduleCodes (test : Bool) (ps : List (List (List Nat))) (fs : List (Nat × List (List Nat))) :
    Option (List Module) :=
  (lexFiles fs).bind (modulesP test (ps.map fun p => p.map (spell · 0)))

/-- The modules of a crate, from the lines of its files and the place of each file. -/
def modulesOf (test : Bool) (ps : List (List String)) (fs : List (String × List String)) : Option (List Module) :=
  moduleCodes test (ps.map fun p => p.map codes) (fs.map fun (m, ls) => (spell (codes m) 0, ls.map codes))

/-! ## Finding what a path stands for -/

/-- Is `p` the start of `q`? -/
def startOf : List Nat → List Nat → Bool
  | [], _ => true
  | a :: p, b :: q => (Nat.beq a b).and (startOf p q)
  | _, _ => false

/-- The last name of a path, if it is this one. -/
def endsIn (n : Nat) : List Nat → Bool
  | [] => false
  | [a] => Nat.beq a n
  | _ :: p => endsIn n p

/-- What a path stands for. -/
inductive Target where
  /-- a module of the crate -/
  | mod (path : List Nat)
  /-- an item of the crate: its module and what it is -/
  | item (mod : List Nat) (sort : ItemSort) (name : Nat)
  /-- something that belongs to a type or trait of the crate -/
  | member (mod : List Nat) (type : Nat) (name : Nat)
  /-- something in the library `core` -/
  | core (path : List Nat)
  /-- a name that is known everywhere -/
  | prelude (name : Nat)

/-- `Option`, `Some`, `None`, `Result`, `Ok`, `Err`, `TryFrom`, `u8`, `u16`, `u32`, `usize`, `i32`, `bool` and `str`:
types of the language, and what `core` makes known everywhere. -/
def preludeNames : List Nat :=
  [[79, 112, 116, 105, 111, 110], [83, 111, 109, 101], [78, 111, 110, 101], [82, 101, 115, 117, 108, 116], [79, 107],
   [69, 114, 114], [84, 114, 121, 70, 114, 111, 109], [117, 56], [117, 49, 54], [117, 51, 50],
   [117, 115, 105, 122, 101], [105, 51, 50], [98, 111, 111, 108], [115, 116, 114]].map (spell · 0)

/-- A name in a module: whether it is public, and what it stands for or the path it is imported by. -/
inductive Binding where
  | is (t : Target)
  | via (path : List Nat)

/-- What a module binds a name to. -/
def Module.bindings (m : Module) (n : Nat) : List (Bool × Binding) :=
  (m.items.filterMap fun i => match Nat.beq i.name n with
    | true => some (i.pub, .is (.item m.path i.sort n))
    | false => none) ++
  (m.mods.filterMap fun c => match Nat.beq c.2.2 n with
    | true => some (c.1, .is (.mod (m.path ++ [n])))
    | false => none) ++
  (m.uses.filterMap fun u => match endsIn n u.2 with
    | true => some (u.1, .via u.2)
    | false => none)

/-- What a path stands for in the module `here`, given the paths that are imported locally; the number bounds the chain
of imports.  The first name is looked for among the local imports, then in the module, then among the names known
everywhere.  A name that is not public can be used in its module and those inside it.  A name that is bound twice
stands for nothing. -/
def resolve (ms : List Module) : Nat → List Nat → List (List Nat) → List Nat → Option Target
  | 0, _, _, _ => none
  | _ + 1, _, _, [] => none
  | k + 1, here, uses, a :: p =>
    let enter (m : List Nat) (n : Nat) : Option Target :=
      match ms.find? fun x => samePath x.path m with
      | none => none
      | some x => match x.bindings n with
        | [(v, b)] => (match v.or (startOf m here), b with
          | true, .is t => some t
          | true, .via q => resolve ms k m [] q
          | false, _ => none)
        | _ => none
    let rec go : Target → List Nat → Option Target
      | t, [] => some t
      | t, n :: p => match t with
        | .mod m => (match Nat.beq n superName, m with
          | true, [] => none
          | true, m => go (.mod m.dropLast) p
          | false, m => match enter m n with
            | some t => go t p
            | none => none)
        | .item m .type y => go (.member m y n) p
        | .item m .trait y => go (.member m y n) p
        | .core q => go (.core (q ++ [n])) p
        | .prelude y => (match p with
          | [] => some (.prelude y)
          | _ => none)
        | _ => none
    let first : Option Target :=
      match uses.filter (endsIn a) with
      | [q] => resolve ms k here [] q
      | _ :: _ => none
      | [] => match Nat.beq a crateName, Nat.beq a selfName, Nat.beq a superName with
        | true, _, _ => some (.mod [])
        | _, true, _ => some (.mod here)
        | _, _, true => (match here with
          | [] => none
          | m => some (.mod m.dropLast))
        | _, _, _ => match (ms.find? fun x => samePath x.path here).map (·.bindings a) with
          | some (_ :: _) => enter here a
          | _ => match Nat.beq a coreName, preludeNames.any (Nat.beq a) with
            | true, _ => some (.core [])
            | _, true => some (.prelude a)
            | _, _ => none
    first.bind (go · p)

/-! ## Comparison with the parser -/

/-- The names of the types and traits of the crate. -/
def typeNames (ms : List Module) : List Nat :=
  ms.flatMap fun m => m.items.filterMap fun i => match i.sort with
    | .fn => none
    | _ => some i.name

/-- The name that the parser gives a module. -/
def ownerAt (ms : List Module) (p : List Nat) : Option Nat := (ms.find? fun x => samePath x.path p).map (·.owner)

/-- The parser, in the context `c`, takes a path in a module for what it stands for.  A name that stands for no item is
a variable, a field, a variant that is declared or a type parameter: the parser must know no function or type of that
name, unless it is bound by `let`. -/
def readsAs (c : Ctx) (ms : List Module) (m : Module) (x : Mention) : Bool :=
  let c := { c with mod := m.file, owner := x.owner }
  match resolve ms 10 m.path x.uses x.path with
  | none | some (.mod _) => (match x.path with
    | [n] => (x.lets.any (Nat.beq n)).or ((Bool.not ((typeNames ms).any (Nat.beq n))).and
      ((Bool.not (c.fns.any fun p => Nat.beq p.2 n)).or (c.ownerOf n).isNone))
    | _ => false)
  | some (.item p .fn f) => (match x.path, ownerAt ms p with
    | [n], some o => (match c.ownerOf n with
      | some o' => (Nat.beq n f).and (Nat.beq o o')
      | none => false)
    | n :: cs, some o => (Nat.beq (qualified n cs).1 o).and (Nat.beq (qualified n cs).2 f)
    | _, _ => false)
  | some (.item _ _ y) => samePath x.path [y]
  | some (.member _ y v) => samePath x.path [y, v]
  | some (.core _) => (Bool.not (x.path.any fun n => (typeNames ms).any (Nat.beq n))).and (match x.path with
    | [n] => (c.ownerOf n).isNone
    | _ => true)
  | some (.prelude y) => (startOf [y] x.path).and (Bool.not ((typeNames ms).any (Nat.beq y)))

/-- All paths are read as what they stand for. -/
def allRead (c : Ctx) (ms : List Module) : Bool := ms.all fun m => m.mentions.all (readsAs c ms m)

/-- The names that are applied to arguments, alone in a list, and the pairs of names with `::` between them, as they come
in a text, apart from imports, attributes, names after a dot and the names of functions that are declared.  The first
argument is 1 where a name is to be left out, 2 after `::`, 3 in an import, 4 after a name without `::` before it, 5 in
an attribute, and 0 elsewhere; the second is the name before.  The third collects, each once. -/
def usesIn : Nat → Option Nat → List (List Nat) → List Tok → List (List Nat)
  | _, _, l, [] => l
  | 3, _, l, .op .semi :: ts => usesIn 0 none l ts
  | 3, _, l, _ :: ts => usesIn 3 none l ts
  | 5, _, l, .op .rbrack :: ts => usesIn 0 none l ts
  | 5, _, l, _ :: ts => usesIn 5 none l ts
  | _, _, l, .kw .use :: ts => usesIn 3 none l ts
  | _, _, l, .op .hash :: ts => usesIn 5 none l ts
  | _, _, l, .op .dot :: ts => usesIn 1 none l ts
  | _, _, l, .kw .fn :: ts => usesIn 1 none l ts
  | 1, _, l, .name _ :: ts => usesIn 0 none l ts
  | 2, some a, l, .name b :: ts => usesIn 0 (some b) (add [a, b] l) ts
  | 2, none, l, .name _ :: ts => usesIn 0 none l ts
  | _, a, l, .op .colon2 :: ts => usesIn 2 a l ts
  | 4, some f, l, .op .lparen :: ts => usesIn 0 none (add [f] l) ts
  | _, _, l, .name a :: ts => usesIn 4 (some a) l ts
  | _, _, l, _ :: ts => usesIn 0 none l ts
where
  /-- Add unless there. -/
  add (p : List Nat) (l : List (List Nat)) : List (List Nat) := match l.any (samePath p) with
    | true => l
    | false => p :: l

/-- Is it part of this path: the name alone, or two names next to each other? -/
def within : List Nat → List Nat → Bool
  | [f], [g] => Nat.beq f g
  | [a, b], x :: y :: p => ((Nat.beq a x).and (Nat.beq b y)).or (within [a, b] (y :: p))
  | _, _ => false

/-- All of this is among the paths of the modules of its file. -/
def covered (ms : List Module) (us : List (Nat × List Tok)) : Bool :=
  us.all fun (f, ts) => (usesIn 0 none [] ts).all fun p => ms.any fun m => (Nat.beq m.file f).and
    (m.mentions.any fun x => within p x.path)

/-- What is used from outside the crate is among these paths of `core` and these names known everywhere. -/
def usesOnly (cores : List (List Nat)) (names : List Nat) (ms : List Module) : Bool :=
  ms.all fun m => m.mentions.all fun x => match resolve ms 10 m.path x.uses x.path with
    | some (.core q) => cores.any (samePath q)
    | some (.prelude n) => names.any (Nat.beq n)
    | _ => true

/-- None of these words is in the text. -/
def lacks (ws : List Nat) : List Tok → Bool
  | [] => true
  | .name n :: ts => (Bool.not (ws.any (Nat.beq n))).and (lacks ws ts)
  | _ :: ts => lacks ws ts

/-- What another crate can name: the name, and what it stands for.  The first argument bounds the depth of modules. -/
def exports (ms : List Module) : Nat → List Nat → List (List Nat × Option Target)
  | 0, _ => []
  | k + 1, p => match ms.find? fun x => samePath x.path p with
    | none => []
    | some m =>
      (m.items.filterMap fun i => match i.pub with
        | true => some ([i.name], some (.item p i.sort i.name))
        | false => none) ++
      (m.uses.filterMap fun u => match u.1 with
        | true => some ([u.2.getLastD 0], resolve ms 10 p [] u.2)
        | false => none) ++
      (m.mods.flatMap fun c => match c.1 with
        | true => (exports ms k (p ++ [c.2.2])).map fun e => (c.2.2 :: e.1, e.2)
        | false => [])

/-- Can another crate name this item? -/
def exported (ms : List Module) (p : List Nat) (n : Nat) : Bool :=
  (exports ms 5 []).any fun e => match e.2 with
    | some (.item q _ y) => (samePath p q).and (Nat.beq n y)
    | _ => false

/-- The functions that another crate can call: those it can name, the public functions of types it can name, and what
such types have from traits that it can name or that are not of this crate. -/
def callable (ms : List Module) : List (Option Nat × Nat) :=
  ((exports ms 5 []).filterMap fun e => match e.2 with
    | some (.item p .fn f) => some (ownerAt ms p, f)
    | _ => none) ++
  ms.flatMap fun m => m.impls.flatMap fun i =>
    let out := match resolve ms 10 m.path [] [i.type] with
      | some (.item p .type y) => exported ms p y
      | some (.prelude _) => true
      | _ => false
    match out, i.trait with
    | false, _ => []
    | true, none => i.fns.filterMap fun f => (match f.1 with
      | true => some (some i.type, f.2)
      | false => none)
    | true, some t => match resolve ms 10 m.path [] [t] with
      | some (.item p .trait y) => (match exported ms p y, ms.find? fun x => samePath x.path p with
        | true, some x => (x.traits.filter fun d => Nat.beq d.1 y).flatMap fun d => d.2.map fun f => (some i.type, f)
        | _, _ => [])
      | some (.core _) => i.fns.map fun f => (some i.type, f.2)
      | some (.prelude _) => i.fns.map fun f => (some i.type, f.2)
      | _ => []

end Raki.Source
