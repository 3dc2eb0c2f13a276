import Verif.Source.Grammar
/-!
# The grammar of the crate's files

`Items b c i us d` says that the tokens `us` are items that declare `d`; `IsCrate` puts the files together.  The bodies
of functions are phrases of `Verif.Source.Grammar`.
-/

set_option linter.constructorNameAsVariable false

namespace Raki.Source

/-- What two parts of a file declare together. -/
instance : Append Decls :=
  ⟨fun d e => ⟨d.fns ++ e.fns, d.defaults ++ e.defaults, d.impls ++ e.impls, d.types ++ e.types⟩⟩

/-- Nothing is declared. -/
def Decls.none : Decls := ⟨[], [], [], []⟩

/-- What stands between `derive(` and the end of the attribute. -/
inductive Derives : List Tok → List Derive → Prop
  | nil : Derives [.op .rparen, .op .rbrack] []
  | last {k d} : deriveOf k = some d → Derives [.kw k, .op .rparen, .op .rbrack] [d]
  | more {k d us ds} : deriveOf k = some d → Derives us ds → Derives (.kw k :: .op .comma :: us) (d :: ds)

/-- What stands after `#[` in `#[cfg(test)]`. -/
def cfgTest : List Tok := [.kw .cfg, .op .lparen, .kw .test, .op .rparen, .op .rbrack]

/-- Attributes, what they derive, and whether `cfg(test)` is among them.  Others say nothing. -/
inductive Attrs : List Tok → List Derive → Bool → Prop
  | nil : Attrs [] [] false
  | derive {us vs ds es t} : Derives us ds → Attrs vs es t →
      Attrs (.op .hash :: .op .lbrack :: .kw .derive :: .op .lparen :: us ++ vs) (ds ++ es) t
  | test {vs es t} : Attrs vs es t → Attrs (.op .hash :: .op .lbrack :: cfgTest ++ vs) es true
  | outer {us vs es t} : Closes .lbrack .rbrack 1 us → (∀ vs, us ≠ .kw .derive :: .op .lparen :: vs) → us ≠ cfgTest →
      Attrs vs es t → Attrs (.op .hash :: .op .lbrack :: us ++ vs) es t
  | inner {us vs es t} : Closes .lbrack .rbrack 1 us → Attrs vs es t →
      Attrs (.op .hash :: .op .bang :: .op .lbrack :: us ++ vs) es t

/-- `pub`, or nothing. -/
def OptPub (us : List Tok) : Prop := us = [] ∨ us = [.kw .pub]

/-- What stands before an item that is not left out, with what it derives. -/
def Before (c : Ctx) (us : List Tok) (ds : List Derive) : Prop :=
  ∃ as ps t, us = as ++ ps ∧ Attrs as ds t ∧ OptPub ps ∧ (t = true → c.test = true)

/-- Type parameters, if any. -/
inductive Generics : List Tok → Prop
  | none : Generics []
  | some {us} : .op .gt ∉ us → Generics (.op .lt :: us ++ [.op .gt])

/-- A variant of an enumeration. -/
inductive Variant : List Tok → Id × Option Id → Prop
  | plain {v i} : ident v = some i → Variant [.name v] (i, none)
  | arg {v t i j} : ident v = some i → ident t = some j →
      Variant [.name v, .op .lparen, .name t, .op .rparen] (i, some j)

/-- Variants and the brace that closes them. -/
inductive Variants : List Tok → List (Id × Option Id) → Prop
  | nil : Variants [.op .rbrace] []
  | last {as us v} : Attributes as → Variant us v → Variants (as ++ us ++ [.op .rbrace]) [v]
  | more {as us v ws vs} : Attributes as → Variant us v → Variants ws vs →
      Variants (as ++ us ++ .op .comma :: ws) (v :: vs)

/-- The fields of a structure and the brace that closes them. -/
inductive Members (c : Ctx) : List Tok → List (Id × Ty) → Prop
  | nil : Members c [.op .rbrace] []
  | last {as x i us t} : Attributes as → ident x = some i → Phrase .ty c us t →
      Members c (as ++ .kw .pub :: .name x :: .op .colon :: us ++ [.op .rbrace]) [(i, t)]
  | more {as x i us t ws xs} : Attributes as → ident x = some i → Phrase .ty c us t → Members c ws xs →
      Members c (as ++ .kw .pub :: .name x :: .op .colon :: us ++ .op .comma :: ws) ((i, t) :: xs)

/-- A parameter.  The formatter `f` is left out. -/
inductive Param (c : Ctx) : List Tok → List (Id × Ty) → Prop
  | formatter {rs us t} : Refs rs → Phrase .ty c us t → Param c (rs ++ .kw .f :: .op .colon :: us) []
  | typed {rs x i us t} : Refs rs → ident x = some i → Phrase .ty c us t →
      Param c (rs ++ .name x :: .op .colon :: us) [(i, t)]
  | self {rs x} : Refs rs → ident x = some .self → Param c (rs ++ [.name x]) [(.self, namedTy c none [])]

/-- Parameters and the parenthesis that closes them. -/
inductive Params (c : Ctx) : List Tok → List (Id × Ty) → Prop
  | nil : Params c [.op .rparen] []
  | last {us ps} : Param c us ps → Params c (us ++ [.op .rparen]) ps
  | more {us ps ws qs} : Param c us ps → Params c ws qs → Params c (us ++ .op .comma :: ws) (ps ++ qs)

/-- The type of the result, if any. -/
inductive Ret (c : Ctx) : List Tok → Ty → Prop
  | none : Ret c [] .other
  | some {us t} : Phrase .ty c us t → Ret c (.op .arrow :: us) t

/-- A function, from its name on.  Without a body it declares nothing. -/
inductive Function (b : Ctx → List Tok → Expr → Prop) (c : Ctx) : List Tok → Option (Nat × Fn) → Prop
  | noBody {f i gs us ps rs t} : ident f = some i → Generics gs → Params c us ps → Ret c rs t →
      Function b c (.name f :: gs ++ .op .lparen :: us ++ rs ++ [.op .semi]) none
  | body {f i gs us ps rs t bs e} : ident f = some i → Generics gs → Params c us ps → Ret c rs t → b c bs e →
      Function b c (.name f :: gs ++ .op .lparen :: us ++ rs ++ bs)
        (some (f, ⟨(ident c.owner).getD i, i, ps, t, e⟩))

/-- What a function declares, outside of traits and in them. -/
def declared (c : Ctx) : Option (Nat × Fn) → Option Nat → Decls
  | none, _ => .none
  | some (f, fn), none => ⟨[(c.owner, f, fn)], [], [], []⟩
  | some (f, fn), some t => ⟨[], [(t, f, fn)], [], []⟩

/-- Items and what they declare, given what a body is, and the trait they belong to. -/
inductive Items (b : Ctx → List Tok → Expr → Prop) : Ctx → Option Nat → List Tok → Decls → Prop
  | nil {c i} : Items b c i [] .none
  /-- an item for tests, in a crate that is not compiled for its tests -/
  | skipped {c i as es ps k us vs ws d} : Attrs as es true → c.test = false → OptPub ps → itemKw k = true →
      .op .lbrace ∉ us → Closes .lbrace .rbrace 1 vs → Items b c i ws d →
      Items b c i (as ++ ps ++ .kw k :: us ++ .op .lbrace :: vs ++ ws) d
  | use {c i hs ds us ws d} : Before c hs ds → .op .semi ∉ us → Items b c i ws d →
      Items b c i (hs ++ .kw .use :: us ++ .op .semi :: ws) d
  | type_ {c i hs ds us ws d} : Before c hs ds → .op .semi ∉ us → Items b c i ws d →
      Items b c i (hs ++ .kw .type :: us ++ .op .semi :: ws) d
  | file {c i hs ds m ws d} : Before c hs ds → Items b c i ws d →
      Items b c i (hs ++ .kw .mod :: .name m :: .op .semi :: ws) d
  | mod {c i hs ds m us ws d e} : Before c hs ds →
      Items b { c with owner := joinName c.mod m, selfTy := none } none us d → Items b c i ws e →
      Items b c i (hs ++ .kw .mod :: .name m :: .op .lbrace :: us ++ .op .rbrace :: ws) (d ++ e)
  | enum {c i hs ds n j us vs ws d} : Before c hs ds → ident n = some j → Variants us vs → Items b c i ws d →
      Items b c i (hs ++ .kw .enum :: .name n :: .op .lbrace :: us ++ ws)
        ((⟨[], [], [], [(n, ⟨j, ds, .enum vs⟩)]⟩ : Decls) ++ d)
  | struct {c i hs ds n j us xs ws d} : Before c hs ds → ident n = some j → Members c us xs → Items b c i ws d →
      Items b c i (hs ++ .kw .struct :: .name n :: .op .lbrace :: us ++ ws)
        ((⟨[], [], [], [(n, ⟨j, ds, .struct xs⟩)]⟩ : Decls) ++ d)
  | trait {c i hs ds n us ws d e} : Before c hs ds →
      Items b { c with owner := n, selfTy := none } (some n) us d → Items b c i ws e →
      Items b c i (hs ++ .kw .trait :: .name n :: .op .lbrace :: us ++ .op .rbrace :: ws) (d ++ e)
  | implFor {c i hs ds a gs n us ws d e} : Before c hs ds → Generics gs →
      Items b { c with owner := n, selfTy := some n } none us d → Items b c i ws e →
      Items b c i
        (hs ++ .kw .impl :: .name a :: gs ++ .kw .for :: .name n :: .op .lbrace :: us ++ .op .rbrace :: ws)
        ((⟨[], [], [(a, n)], []⟩ : Decls) ++ (d ++ e))
  | impl {c i hs ds a gs us ws d e} : Before c hs ds → Generics gs →
      Items b { c with owner := a, selfTy := some a } none us d → Items b c i ws e →
      Items b c i (hs ++ .kw .impl :: .name a :: gs ++ .op .lbrace :: us ++ .op .rbrace :: ws) (d ++ e)
  | fn {c i hs ds us f ws d} : Before c hs ds → Function b c us f → Items b c i ws d →
      Items b c i (hs ++ .kw .fn :: us ++ ws) (declared c f i ++ d)

/-- A body that is not looked into. -/
def Unread (_ : Ctx) (us : List Tok) (e : Expr) : Prop :=
  ∃ vs, us = .op .lbrace :: vs ∧ Closes .lbrace .rbrace 1 vs ∧ e = .unit

/-- A body. -/
def Body (c : Ctx) (us : List Tok) (e : Expr) : Prop := Phrase .block c us e

/-- Files, each with the name of its module. -/
inductive Files (b : Ctx → List Tok → Expr → Prop) (c : Ctx) : List (Nat × List Tok) → List Decls → Prop
  | nil : Files b c [] []
  | cons {m ts d fs ds} : Items b { c with mod := m, owner := m } none ts d → Files b c fs ds →
      Files b c ((m, ts) :: fs) (d :: ds)

/-- The files make up a crate.  Names of enumerations and functions may be used before they are declared. -/
def IsCrate (test : Bool) (fs : List (Nat × List Tok)) (k : Crate) : Prop :=
  ∃ ds es, Files Unread (Ctx.empty test) fs ds ∧ Files Body (known test ds) fs es ∧ k = joined es

end Raki.Source
