import Verif.Source.Relate
/-!
# Branches of the source

The branches of a function are the arms of its `match` expressions, both sides of its `if` expressions (a missing
`else` counts) and the closures given to `unwrap_or_else`.  They are numbered in the order of the text, an enclosing
branch before those inside it.
-/

namespace Raki.Source

set_option linter.constructorNameAsVariable false

/-- The code `g` has for branch `k`, or else the branch as it is, `e.1`; and the number of the next branch. -/
def branch (g : Nat → Option Expr) (k : Nat) (e : Expr × Nat) : Expr × Nat := ((g k).getD e.1, e.2)

mutual

/-- Replace the branches of an expression, the first of which has number `k`. -/
def Expr.fill (g : Nat → Option Expr) : Expr → Nat → Expr × Nat
  | .variantOf ty c e, k => let r := e.fill g k; (.variantOf ty c r.1, r.2)
  | .call o f as, k => let r := as.fill g k; (.call o f r.1, r.2)
  | .method e f as, k => let r := e.fill g k; let s := as.fill g r.2; (.method r.1 f s.1, s.2)
  | .field e x, k => let r := e.fill g k; (.field r.1 x, r.2)
  | .bin op a b, k => let r := a.fill g k; let s := b.fill g r.2; (.bin op r.1 s.1, s.2)
  | .neg e, k => let r := e.fill g k; (.neg r.1, r.2)
  | .matches_ e p, k => let r := e.fill g k; (.matches_ r.1 p, r.2)
  | .cast e t, k => let r := e.fill g k; (.cast r.1 t, r.2)
  | .tryFrom t e, k => let r := e.fill g k; (.tryFrom t r.1, r.2)
  | .from_ t e, k => let r := e.fill g k; (.from_ t r.1, r.2)
  | .pow a b, k => let r := a.fill g k; let s := b.fill g r.2; (.pow r.1 s.1, s.2)
  | .unwrap e, k => let r := e.fill g k; (.unwrap r.1, r.2)
  | .orElse e x b, k =>
    let r := e.fill g k; let s := branch g r.2 (b.fill g (r.2 + 1)); (.orElse r.1 x s.1, s.2)
  | .into e, k => let r := e.fill g k; (.into r.1, r.2)
  | .question e, k => let r := e.fill g k; (.question r.1, r.2)
  | .ret e, k => let r := e.fill g k; (.ret r.1, r.2)
  | .ite c a b, k =>
    let r := c.fill g k
    let s := branch g r.2 (a.fill g (r.2 + 1))
    let t := branch g s.2 (b.fill g (s.2 + 1))
    (.ite r.1 s.1 t.1, t.2)
  | .match_ e as, k => let r := e.fill g k; let s := as.fill g r.2; (.match_ r.1 s.1, s.2)
  | .block ss, k => let r := ss.fill g k; (.block r.1, r.2)
  | .struct ty fs, k => let r := fs.fill g k; (.struct ty r.1, r.2)
  | .array es, k => let r := es.fill g k; (.array r.1, r.2)
  | .write ps, k => let r := ps.fill g k; (.write r.1, r.2)
  | e, k => (e, k)

/-- The same in arguments. -/
def Exprs.fill (g : Nat → Option Expr) : Exprs → Nat → Exprs × Nat
  | .nil, k => (.nil, k)
  | .cons e es, k => let r := e.fill g k; let s := es.fill g r.2; (.cons r.1 s.1, s.2)

/-- The same in the arms of a `match`, which are branches. -/
def Arms.fill (g : Nat → Option Expr) : Arms → Nat → Arms × Nat
  | .nil, k => (.nil, k)
  | .cons p e as, k =>
    let r := branch g k (e.fill g (k + 1)); let s := as.fill g r.2; (.cons p r.1 s.1, s.2)

/-- The same in the fields of a struct. -/
def Fields.fill (g : Nat → Option Expr) : Fields → Nat → Fields × Nat
  | .nil, k => (.nil, k)
  | .cons x e fs, k => let r := e.fill g k; let s := fs.fill g r.2; (.cons x r.1 s.1, s.2)

/-- The same in a format string. -/
def Pieces.fill (g : Nat → Option Expr) : Pieces → Nat → Pieces × Nat
  | .nil, k => (.nil, k)
  | .text s ps, k => let r := ps.fill g k; (.text s r.1, r.2)
  | .arg sp e ps, k => let r := e.fill g k; let s := ps.fill g r.2; (.arg sp r.1 s.1, s.2)

/-- The same in statements. -/
def Stmts.fill (g : Nat → Option Expr) : Stmts → Nat → Stmts × Nat
  | .done e, k => let r := e.fill g k; (.done r.1, r.2)
  | .let_ x t e ss, k => let r := e.fill g k; let s := ss.fill g r.2; (.let_ x t r.1 s.1, s.2)
  | .letClosure x e ss, k => let r := e.fill g k; let s := ss.fill g r.2; (.letClosure x r.1 s.1, s.2)
  | .letFn o x ps b ss, k => let r := b.fill g k; let s := ss.fill g r.2; (.letFn o x ps r.1 s.1, s.2)
  | .expr e ss, k => let r := e.fill g k; let s := ss.fill g r.2; (.expr r.1 s.1, s.2)
  | .assert e ss, k => let r := e.fill g k; let s := ss.fill g r.2; (.assert r.1 s.1, s.2)
  | .assertEq q a b ss, k =>
    let r := a.fill g k; let s := b.fill g r.2; let t := ss.fill g s.2; (.assertEq q r.1 s.1 t.1, t.2)
  | .forRevEnum i x e y b ss, k =>
    let r := e.fill g k; let s := b.fill g r.2; let t := ss.fill g s.2; (.forRevEnum i x r.1 y s.1 t.1, t.2)

end

theorem branch_none {g : Nat → Option Expr} (h : ∀ k, g k = none) (k : Nat) (e : Expr × Nat) : branch g k e = e := by
  simp only [branch, h, Option.getD_none]

mutual

theorem Expr.fill_none {g : Nat → Option Expr} (h : ∀ k, g k = none) (e : Expr) (k : Nat) : (e.fill g k).1 = e := by
  cases e <;> simp only [Expr.fill, branch_none h]
  case variantOf e => rw [e.fill_none h]
  case call as => rw [as.fill_none h]
  case method e _ as => rw [e.fill_none h, as.fill_none h]
  case field e _ => rw [e.fill_none h]
  case bin a b => rw [a.fill_none h, b.fill_none h]
  case neg e => rw [e.fill_none h]
  case matches_ e _ => rw [e.fill_none h]
  case cast e _ => rw [e.fill_none h]
  case tryFrom e => rw [e.fill_none h]
  case from_ e => rw [e.fill_none h]
  case pow a b => rw [a.fill_none h, b.fill_none h]
  case unwrap e => rw [e.fill_none h]
  case orElse e _ b => rw [e.fill_none h, b.fill_none h]
  case into e => rw [e.fill_none h]
  case question e => rw [e.fill_none h]
  case ret e => rw [e.fill_none h]
  case ite c a b => rw [c.fill_none h, a.fill_none h, b.fill_none h]
  case match_ e as => rw [e.fill_none h, as.fill_none h]
  case block ss => rw [ss.fill_none h]
  case struct fs => rw [fs.fill_none h]
  case array es => rw [es.fill_none h]
  case write ps => rw [ps.fill_none h]

theorem Exprs.fill_none {g : Nat → Option Expr} (h : ∀ k, g k = none) (e : Exprs) (k : Nat) : (e.fill g k).1 = e := by
  cases e <;> simp only [Exprs.fill]
  case cons e es => rw [e.fill_none h, es.fill_none h]

theorem Arms.fill_none {g : Nat → Option Expr} (h : ∀ k, g k = none) (e : Arms) (k : Nat) : (e.fill g k).1 = e := by
  cases e <;> simp only [Arms.fill, branch_none h]
  case cons e as => rw [e.fill_none h, as.fill_none h]

theorem Fields.fill_none {g : Nat → Option Expr} (h : ∀ k, g k = none) (e : Fields) (k : Nat) :
    (e.fill g k).1 = e := by
  cases e <;> simp only [Fields.fill]
  case cons e fs => rw [e.fill_none h, fs.fill_none h]

theorem Pieces.fill_none {g : Nat → Option Expr} (h : ∀ k, g k = none) (e : Pieces) (k : Nat) :
    (e.fill g k).1 = e := by
  cases e <;> simp only [Pieces.fill]
  case text ps => rw [ps.fill_none h]
  case arg e ps => rw [e.fill_none h, ps.fill_none h]

theorem Stmts.fill_none {g : Nat → Option Expr} (h : ∀ k, g k = none) (e : Stmts) (k : Nat) :
    (e.fill g k).1 = e := by
  cases e <;> simp only [Stmts.fill]
  case done e => rw [e.fill_none h]
  case let_ e ss => rw [e.fill_none h, ss.fill_none h]
  case letClosure e ss => rw [e.fill_none h, ss.fill_none h]
  case letFn b ss => rw [b.fill_none h, ss.fill_none h]
  case expr e ss => rw [e.fill_none h, ss.fill_none h]
  case assert e ss => rw [e.fill_none h, ss.fill_none h]
  case assertEq a b ss => rw [a.fill_none h, b.fill_none h, ss.fill_none h]
  case forRevEnum e _ b ss => rw [e.fill_none h, b.fill_none h, ss.fill_none h]

end

/-- A branch of a function of the program. -/
structure Branch where
  owner : Id
  fn : Id
  index : Nat
  deriving DecidableEq

/-- Replace the branches of a function. -/
def Fn.fill (g : Branch → Option Expr) (fn : Fn) : Fn :=
  { fn with body := (fn.body.fill (fun k => g ⟨fn.owner, fn.name, k⟩) 0).1 }

/-- Replace branches of a program. -/
def fill (g : Branch → Option Expr) (fns : List Fn) : List Fn := fns.map (Fn.fill g)

theorem find_fill (g : Branch → Option Expr) (fns : List Fn) (o f : Id) :
    find (fill g fns) o f = (find fns o f).map (Fn.fill g) := by
  induction fns with
  | nil => rfl
  | cons fn fns ih =>
    simp only [fill] at ih
    simp only [fill, List.map_cons, find, Fn.fill, ih]
    split <;> rfl

theorem Fn.fill_none {g : Branch → Option Expr} (fn : Fn) (h : ∀ k, g ⟨fn.owner, fn.name, k⟩ = none) :
    fn.fill g = fn := by
  simp only [Fn.fill, Expr.fill_none h]

/-- The branches of a program. -/
def branches (fns : List Fn) : List Branch :=
  fns.flatMap fun fn => (List.range (fn.body.fill (fun _ => none) 0).2).map fun k => ⟨fn.owner, fn.name, k⟩

/-- What users of the crate can call: `Decode` for `u32` and `u16`, the conversion, `Display` of instructions,
opcodes and the opcodes of each extension, and `get_format`. -/
inductive PublicCall where
  | decode32 (w : BitVec 32) (isa : Isa)
  | decode16 (h : BitVec 16) (isa : Isa)
  | parseOpcode32 (w : BitVec 32) (isa : Isa)
  | parseOpcode16 (h : BitVec 16) (isa : Isa)
  | parseRd32 (w : BitVec 32) (op : OpcodeKind)
  | parseRd16 (h : BitVec 16) (op : OpcodeKind)
  | parseRs1_32 (w : BitVec 32) (op : OpcodeKind)
  | parseRs1_16 (h : BitVec 16) (op : OpcodeKind)
  | parseRs2_32 (w : BitVec 32) (op : OpcodeKind)
  | parseRs2_16 (h : BitVec 16) (op : OpcodeKind)
  | parseImm32 (w : BitVec 32) (op : OpcodeKind) (isa : Isa)
  | parseImm16 (h : BitVec 16) (op : OpcodeKind) (isa : Isa)
  | tryFrom (x : Nat)
  | showInstruction (i : Instruction)
  | showOpcode (op : OpcodeKind)
  | showName (op : OpcodeKind)
  | getFormat (op : OpcodeKind)

/-- The opcode without the extension it is wrapped in. -/
def unwrapped : OpcodeKind → Id × Val
  | .BaseI o => (.BaseIOpcode, emb o) | .M o => (.MOpcode, emb o) | .A o => (.AOpcode, emb o)
  | .C o => (.COpcode, emb o) | .Zifencei o => (.ZifenceiOpcode, emb o) | .Zicboz o => (.ZicbozOpcode, emb o)
  | .Zicsr o => (.ZicsrOpcode, emb o) | .Zicfiss o => (.ZicfissOpcode, emb o)
  | .Zicntr o => (.ZicntrOpcode, emb o) | .Priv o => (.PrivOpcode, emb o)

/-- Make a public call in the program `fns`. -/
def PublicCall.run (fns : List Fn) (md : Build) (d : Nat) : PublicCall → Out Val
  | .decode32 w isa => call fns md d .u32 .decode [emb w, emb isa]
  | .decode16 h isa => call fns md d .u16 .decode [emb h, emb isa]
  | .parseOpcode32 w isa => call fns md d .u32 .parse_opcode [emb w, emb isa]
  | .parseOpcode16 h isa => call fns md d .u16 .parse_opcode [emb h, emb isa]
  | .parseRd32 w op => call fns md d .u32 .parse_rd [emb w, emb op]
  | .parseRd16 h op => call fns md d .u16 .parse_rd [emb h, emb op]
  | .parseRs1_32 w op => call fns md d .u32 .parse_rs1 [emb w, emb op]
  | .parseRs1_16 h op => call fns md d .u16 .parse_rs1 [emb h, emb op]
  | .parseRs2_32 w op => call fns md d .u32 .parse_rs2 [emb w, emb op]
  | .parseRs2_16 h op => call fns md d .u16 .parse_rs2 [emb h, emb op]
  | .parseImm32 w op isa => call fns md d .u32 .parse_imm [emb w, emb op, emb isa]
  | .parseImm16 h op isa => call fns md d .u16 .parse_imm [emb h, emb op, emb isa]
  | .tryFrom x => call fns md d .Instruction .try_from [emb x]
  | .showInstruction i => call fns md d .Instruction .fmt [emb i]
  | .showOpcode op => call fns md d .OpcodeKind .fmt [emb op]
  | .showName op => call fns md d (unwrapped op).1 .fmt [(unwrapped op).2]
  | .getFormat op => call fns md d .OpcodeKind .get_format [emb op]

end Raki.Source
