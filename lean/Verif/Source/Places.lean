import Verif.Source.Scope
import Verif.Source.Tokens
/-!
# The modules of the crate

What `Verif.Source.Scope` says of the files, evaluated.
-/

namespace Raki.Source

/-- Where each of the `files` is in the tree of modules: `src/lib.rs` is the root, `src/a.rs` the module `a`, and
`src/a/b.rs` the module `b` inside it. -/
def places : List (List String) :=
  [[], ["decode"], ["instruction"], ["instruction", "a_extension"], ["instruction", "base_i"],
   ["instruction", "c_extension"], ["instruction", "m_extension"], ["instruction", "priv_extension"],
   ["instruction", "zicboz_extension"], ["instruction", "zicfiss_extension"], ["instruction", "zicntr_extension"],
   ["instruction", "zicsr_extension"], ["instruction", "zifencei_extension"], ["decode", "inst_16"],
   ["decode", "inst_32"], ["decode", "a_extension"], ["decode", "base_i"], ["decode", "c_extension"],
   ["decode", "m_extension"], ["decode", "priv_extension"], ["decode", "zicboz_extension"],
   ["decode", "zicfiss_extension"], ["decode", "zicntr_extension"], ["decode", "zicsr_extension"],
   ["decode", "zifencei_extension"]]

/-- `instruction`, `decode` and `_extension`. -/
def instrCodes : List Nat := [105, 110, 115, 116, 114, 117, 99, 116, 105, 111, 110]
def decodeCodes : List Nat := [100, 101, 99, 111, 100, 101]
def extCodes : List Nat := [95, 101, 120, 116, 101, 110, 115, 105, 111, 110]

/-- The same as character codes. -/
def placesCodes : List (List (List Nat)) :=
  [[], [decodeCodes], [instrCodes],
   [instrCodes, [97] ++ extCodes],
   [instrCodes, [98, 97, 115, 101, 95, 105]],
   [instrCodes, [99] ++ extCodes],
   [instrCodes, [109] ++ extCodes],
   [instrCodes, [112, 114, 105, 118] ++ extCodes],
   [instrCodes, [122, 105, 99, 98, 111, 122] ++ extCodes],
   [instrCodes, [122, 105, 99, 102, 105, 115, 115] ++ extCodes],
   [instrCodes, [122, 105, 99, 110, 116, 114] ++ extCodes],
   [instrCodes, [122, 105, 99, 115, 114] ++ extCodes],
   [instrCodes, [122, 105, 102, 101, 110, 99, 101, 105] ++ extCodes],
   [decodeCodes, [105, 110, 115, 116, 95, 49, 54]],
   [decodeCodes, [105, 110, 115, 116, 95, 51, 50]],
   [decodeCodes, [97] ++ extCodes],
   [decodeCodes, [98, 97, 115, 101, 95, 105]],
   [decodeCodes, [99] ++ extCodes],
   [decodeCodes, [109] ++ extCodes],
   [decodeCodes, [112, 114, 105, 118] ++ extCodes],
   [decodeCodes, [122, 105, 99, 98, 111, 122] ++ extCodes],
   [decodeCodes, [122, 105, 99, 102, 105, 115, 115] ++ extCodes],
   [decodeCodes, [122, 105, 99, 110, 116, 114] ++ extCodes],
   [decodeCodes, [122, 105, 99, 115, 114] ++ extCodes],
   [decodeCodes, [122, 105, 102, 101, 110, 99, 101, 105] ++ extCodes]]

theorem places_eq : places.map (fun p => p.map codes) = placesCodes := by
  have h : places = placesCodes.map fun p => p.map line := by kernel_rfl
  have ha : (placesCodes.all fun p => ascii p) = true := by kernel_rfl
  rw [h, List.map_map]
  refine (List.map_congr_left fun p hp => ?_).trans (List.map_id _)
  exact codes_lines p _ rfl (List.all_eq_true.1 ha p hp)

/-- The names that another crate can use, and the modules that declare them. -/
def publicNames : List (String × List String × Bool) :=
  [("Isa", [], false), ("Decode", ["decode"], true), ("DecodingError", ["decode"], false),
   ("AOpcode", ["instruction", "a_extension"], false), ("BaseIOpcode", ["instruction", "base_i"], false),
   ("COpcode", ["instruction", "c_extension"], false), ("MOpcode", ["instruction", "m_extension"], false),
   ("PrivOpcode", ["instruction", "priv_extension"], false),
   ("ZicbozOpcode", ["instruction", "zicboz_extension"], false),
   ("ZicfissOpcode", ["instruction", "zicfiss_extension"], false),
   ("ZicntrOpcode", ["instruction", "zicntr_extension"], false),
   ("ZicsrOpcode", ["instruction", "zicsr_extension"], false),
   ("ZifenceiOpcode", ["instruction", "zifencei_extension"], false), ("InstFormat", ["instruction"], false),
   ("Instruction", ["instruction"], false), ("OpcodeKind", ["instruction"], false)]

/-- The same as character codes. -/
def publicCodes : List (List Nat × List (List Nat) × Bool) :=
  [([73, 115, 97], [], false), ([68, 101, 99, 111, 100, 101], [decodeCodes], true),
   ([68, 101, 99, 111, 100, 105, 110, 103, 69, 114, 114, 111, 114], [decodeCodes], false),
   ([65, 79, 112, 99, 111, 100, 101], [instrCodes, [97] ++ extCodes], false),
   ([66, 97, 115, 101, 73, 79, 112, 99, 111, 100, 101], [instrCodes, [98, 97, 115, 101, 95, 105]], false),
   ([67, 79, 112, 99, 111, 100, 101], [instrCodes, [99] ++ extCodes], false),
   ([77, 79, 112, 99, 111, 100, 101], [instrCodes, [109] ++ extCodes], false),
   ([80, 114, 105, 118, 79, 112, 99, 111, 100, 101], [instrCodes, [112, 114, 105, 118] ++ extCodes], false),
   ([90, 105, 99, 98, 111, 122, 79, 112, 99, 111, 100, 101], [instrCodes,
     [122, 105, 99, 98, 111, 122] ++ extCodes], false),
   ([90, 105, 99, 102, 105, 115, 115, 79, 112, 99, 111, 100, 101], [instrCodes,
     [122, 105, 99, 102, 105, 115, 115] ++ extCodes], false),
   ([90, 105, 99, 110, 116, 114, 79, 112, 99, 111, 100, 101], [instrCodes,
     [122, 105, 99, 110, 116, 114] ++ extCodes], false),
   ([90, 105, 99, 115, 114, 79, 112, 99, 111, 100, 101], [instrCodes, [122, 105, 99, 115, 114] ++ extCodes], false),
   ([90, 105, 102, 101, 110, 99, 101, 105, 79, 112, 99, 111, 100, 101], [instrCodes,
     [122, 105, 102, 101, 110, 99, 101, 105] ++ extCodes], false),
   ([73, 110, 115, 116, 70, 111, 114, 109, 97, 116], [instrCodes], false),
   ([73, 110, 115, 116, 114, 117, 99, 116, 105, 111, 110], [instrCodes], false),
   ([79, 112, 99, 111, 100, 101, 75, 105, 110, 100], [instrCodes], false)]

/-- A name as the number that it spells. -/
def spelled (s : String) : Nat := spell (codes s) 0

/-- What `publicNames` says, with names as numbers. -/
def publicItems (l : List (Nat × List Nat × Bool)) : List (List Nat × Option Target) :=
  l.map fun (n, p, t) => ([n], some (.item p (match t with
    | true => .trait
    | false => .type) n))

theorem public_eq : (publicNames.map fun (n, p, t) => (spelled n, p.map spelled, t)) =
    publicCodes.map fun (n, p, t) => (spell n 0, p.map (spell · 0), t) := by
  have h : publicNames = publicCodes.map fun (n, p, t) => (line n, p.map line, t) := by kernel_rfl
  have ha : (publicCodes.all fun e => ascii (e.1 :: e.2.1)) = true := by kernel_rfl
  rw [h, List.map_map]
  refine List.map_congr_left fun e he => ?_
  obtain ⟨n, p, t⟩ := e
  have := codes_lines (n :: p) _ rfl (List.all_eq_true.1 ha _ he)
  rw [List.map_cons, List.map_cons, List.cons.injEq] at this
  have hp : (p.map line).map spelled = ((p.map line).map codes).map (spell · 0) := by
    rw [List.map_map (g := (spell · 0))]; rfl
  exact Prod.ext (congrArg (spell · 0) this.1) (Prod.ext (hp.trans (congrArg _ this.2)) rfl)

/-- The functions that another crate can call. -/
def publicFns : List (Id × Id) :=
  [(.Instruction, .try_from), (.Instruction, .fmt), (.OpcodeKind, .fmt), (.OpcodeKind, .get_format), (.AOpcode, .fmt),
   (.BaseIOpcode, .fmt), (.COpcode, .fmt), (.MOpcode, .fmt), (.PrivOpcode, .fmt), (.ZicbozOpcode, .fmt),
   (.ZicfissOpcode, .fmt), (.ZicntrOpcode, .fmt), (.ZicsrOpcode, .fmt), (.ZifenceiOpcode, .fmt)] ++
  [.u16, .u32].flatMap fun o =>
    [(o, .decode), (o, .parse_opcode), (o, .parse_rd), (o, .parse_rs1), (o, .parse_rs2), (o, .parse_imm)]

/-- No name twice. -/
def distinct : List Nat → Bool
  | [] => true
  | a :: l => (Bool.not (l.any (Nat.beq a))).and (distinct l)

/-- The modules that have a file of their own. -/
def fileMods (ms : List Module) : List (List Nat) :=
  ms.flatMap fun m => m.mods.filterMap fun c => match c.2.1 with
    | true => some (m.path ++ [c.2.2])
    | false => none

/-- The two lists have the same elements. -/
def samePaths (l k : List (List Nat)) : Bool :=
  (l.all fun p => k.any (samePath p)).and (k.all fun p => l.any (samePath p))

/-- Where the files are, with names as numbers. -/
def placeNames : List (List Nat) := placesCodes.map fun p => p.map (spell · 0)

/-- What the crate uses of `core`. -/
def corePaths : List (List String) := [["fmt", "Display"], ["fmt", "Formatter"], ["fmt", "Result"]]

/-- The same as character codes. -/
def coreCodes : List (List (List Nat)) :=
  [[[102, 109, 116], [68, 105, 115, 112, 108, 97, 121]],
   [[102, 109, 116], [70, 111, 114, 109, 97, 116, 116, 101, 114]], [[102, 109, 116], [82, 101, 115, 117, 108, 116]]]

/-- The types, constructors and traits it uses that are known everywhere. -/
def preludeWords : List String :=
  ["Option", "Some", "None", "Result", "Ok", "Err", "TryFrom", "u8", "u16", "u32", "usize", "i32", "bool", "str"]

/-- The same as character codes. -/
def preludeCodes : List (List Nat) :=
  [[79, 112, 116, 105, 111, 110], [83, 111, 109, 101], [78, 111, 110, 101], [82, 101, 115, 117, 108, 116], [79, 107],
   [69, 114, 114], [84, 114, 121, 70, 114, 111, 109], [117, 56], [117, 49, 54], [117, 51, 50],
   [117, 115, 105, 122, 101], [105, 51, 50], [98, 111, 111, 108], [115, 116, 114]]

/-- Keywords of Rust that the crate does without. -/
def unusedWords : List String :=
  ["unsafe", "static", "const", "extern", "async", "await", "dyn", "move", "ref", "where", "loop", "while", "break",
   "continue", "union", "macro_rules"]

/-- The same as character codes. -/
def unusedCodes : List (List Nat) :=
  [[117, 110, 115, 97, 102, 101], [115, 116, 97, 116, 105, 99], [99, 111, 110, 115, 116],
   [101, 120, 116, 101, 114, 110], [97, 115, 121, 110, 99], [97, 119, 97, 105, 116], [100, 121, 110],
   [109, 111, 118, 101], [114, 101, 102], [119, 104, 101, 114, 101], [108, 111, 111, 112], [119, 104, 105, 108, 101],
   [98, 114, 101, 97, 107], [99, 111, 110, 116, 105, 110, 117, 101], [117, 110, 105, 111, 110],
   [109, 97, 99, 114, 111, 95, 114, 117, 108, 101, 115]]

/-- Numbers of words. -/
theorem spelled_lines (l : List String) (cs : List (List Nat)) (h : l = cs.map line) (ha : ascii cs = true) :
    l.map spelled = cs.map (spell · 0) := by
  rw [← codes_lines cs l h ha, List.map_map]
  rfl

theorem prelude_eq : preludeWords.map spelled = preludeCodes.map (spell · 0) :=
  spelled_lines _ _ (by kernel_rfl) (by kernel_rfl)

theorem unused_eq : unusedWords.map spelled = unusedCodes.map (spell · 0) :=
  spelled_lines _ _ (by kernel_rfl) (by kernel_rfl)

theorem core_eq : corePaths.map (fun p => p.map spelled) = coreCodes.map fun p => p.map (spell · 0) := by
  have h : corePaths = coreCodes.map fun p => p.map line := by kernel_rfl
  have ha : (coreCodes.all fun p => ascii p) = true := by kernel_rfl
  rw [h, List.map_map]
  exact List.map_congr_left fun p hp => spelled_lines _ _ rfl (List.all_eq_true.1 ha p hp)

/-- What is found about a crate: the tokens of its files, the context its bodies are parsed in when compiled for tests,
its modules then, and its modules otherwise. -/
structure Found where
  toks : List (Nat × List Tok)
  ctx : Ctx
  mods : List Module
  lib : List Module

/-- Read the modules, given where each file is. -/
def scopes (ps : List (List Nat)) (us : List (Nat × List Tok)) : Option Found :=
  (filesP skipBody 3000 (Ctx.empty true) us).bind fun ds => (modulesP true ps us).bind fun ms =>
    (modulesP false ps us).map fun ns => ⟨us, known true ds, ms, ns⟩

/-- The same from the lines of the files. -/
def scopesOf (ps : List (List String)) (fs : List (String × List String)) : Option Found :=
  (lexFiles (fs.map fun (m, ls) => (spelled m, ls.map codes))).bind (scopes (ps.map fun p => p.map spelled))

end Raki.Source
