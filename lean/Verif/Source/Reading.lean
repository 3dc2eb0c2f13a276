import Verif.Source.Parser
/-!
# The reader groups operators as Rust does

Expressions made of numbers, names, operators, casts, fields, method calls, `.unwrap()` and `?` are written with
parentheses only where the precedence of Rust's operators asks for them; the reader gives back the expression.
-/

namespace Raki.Source

set_option linter.constructorNameAsVariable false

/-! ## Expressions and how they are written -/

/-- The types in casts. -/
inductive IntTy where
  | u8 | u16 | u32 | usize | i32

mutual

/-- Expressions; names are given by the number their characters spell. -/
inductive Term where
  | num (n : Nat)
  | name (x : Nat)
  /-- `-a` -/
  | neg (a : Term)
  /-- `a as t` -/
  | cast (a : Term) (t : IntTy)
  /-- `a.unwrap()` -/
  | unwrap (a : Term)
  /-- `a?` -/
  | question (a : Term)
  /-- `a.x` -/
  | field (a : Term) (x : Nat)
  /-- `a.f(b, ..)` -/
  | method (a : Term) (f : Nat) (bs : Terms)
  | bin (o : BinOp) (a b : Term)

/-- Arguments. -/
inductive Terms where
  | nil
  | cons (a : Term) (bs : Terms)

end

/-- How strongly operators bind, by the Rust reference ("Expression precedence"): from the weakest, `==` and `>=`; `|`;
`&`; `<<` and `>>`; `+` and `-`. -/
def BinOp.strength : BinOp → Nat
  | .eq | .ge => 0
  | .or => 1
  | .and => 2
  | .shl | .shr => 3
  | .add | .sub => 4

/-- The weakest operator allowed on the left: operators group to the left, but comparisons need parentheses. -/
def BinOp.left : BinOp → Nat
  | .eq | .ge => 1
  | o => o.strength

/-- The punctuation of an operator. -/
def BinOp.op : BinOp → Op
  | .eq => .eqEq | .ge => .ge | .or => .bar | .and => .amp
  | .shl => .shl | .shr => .shr | .add => .plus | .sub => .minus

/-- The name of a type, as character codes. -/
def IntTy.spelled : IntTy → List Nat
  | .u8 => [117, 56]
  | .u16 => [117, 49, 54]
  | .u32 => [117, 51, 50]
  | .usize => [117, 115, 105, 122, 101]
  | .i32 => [105, 51, 50]

/-- The type in the program's trees. -/
def IntTy.ty : IntTy → Ty
  | .u8 => .u8 | .u16 => .u16 | .u32 => .u32 | .usize => .usize | .i32 => .i32

/-- Parentheses around tokens where they are needed. -/
def paren (needed : Bool) (ts : List Tok) : List Tok :=
  match needed with
  | true => .op .lparen :: (ts ++ [.op .rparen])
  | false => ts

mutual

/-- How an expression is written where only operators of strength at least `l` are allowed.  Stronger than the binary
operators are `as` (5), then the unary operators (6), then method calls, fields and `?` (7).  (Rust asks for more
parentheses in one case, `(a as u32) << b`; the reader does without.) -/
def Term.toks : Nat → Term → List Tok
  | _, .num n => [.num n none]
  | _, .name x => [.name x]
  | l, .neg a => paren (Nat.blt 6 l) (.op .minus :: a.toks 6)
  | l, .cast a t => paren (Nat.blt 5 l) (a.toks 5 ++ [.kw .as, .name (spell t.spelled 0)])
  | _, .unwrap a => a.toks 7 ++ [.op .dot, .kw .unwrap, .op .lparen, .op .rparen]
  | _, .question a => a.toks 7 ++ [.op .quest]
  | _, .field a x => a.toks 7 ++ [.op .dot, .name x]
  | _, .method a f bs => a.toks 7 ++ (.op .dot :: .name f :: .op .lparen :: (bs.toks ++ [.op .rparen]))
  | l, .bin o a b => paren (Nat.blt o.strength l) (a.toks o.left ++ .op o.op :: b.toks (o.strength + 1))

/-- Arguments separated by commas. -/
def Terms.toks : Terms → List Tok
  | .nil => []
  | .cons a .nil => a.toks 0
  | .cons a bs => a.toks 0 ++ .op .comma :: bs.toks

end

mutual

/-- The expression in the program's trees. -/
def Term.expr : Term → Expr
  | .num n => .lit n
  | .name x => .var ((ident x).getD .None)
  | .neg a => .neg a.expr
  | .cast a t => .cast a.expr t.ty
  | .unwrap a => .unwrap a.expr
  | .question a => .question a.expr
  | .field a x => .field a.expr ((ident x).getD .None)
  | .method a f bs => .method a.expr ((ident f).getD .None) (exprs bs.exprs)
  | .bin o a b => .bin o a.expr b.expr

/-- The arguments in the program's trees. -/
def Terms.exprs : Terms → List Expr
  | .nil => []
  | .cons a bs => a.expr :: bs.exprs

end

mutual

/-- All names are words of the crate, and variables are not `None`. -/
def Term.Known : Term → Prop
  | .num _ => True
  | .name x => ∃ i, ident x = some i ∧ i ≠ .None
  | .neg a | .cast a _ | .unwrap a | .question a => a.Known
  | .field a x => a.Known ∧ ∃ i, ident x = some i
  | .method a f bs => a.Known ∧ (∃ i, ident f = some i) ∧ bs.Known
  | .bin _ a b => a.Known ∧ b.Known

/-- The same for arguments. -/
def Terms.Known : Terms → Prop
  | .nil => True
  | .cons a bs => a.Known ∧ bs.Known

end

/-! ## Running with enough fuel -/

/-- With enough fuel the result is `x`. -/
def Ev {α : Type} (f : Nat → Option α) (x : α) : Prop := ∃ N, ∀ n, N ≤ n → f n = some x

theorem Ev.const {α : Type} {f : Nat → Option α} {x : α} (h : ∀ n, f n = some x) : Ev f x :=
  ⟨0, fun n _ => h n⟩

theorem Ev.succ {α : Type} {f : Nat → Option α} {x : α} (h : Ev (fun n => f (n + 1)) x) : Ev f x := by
  obtain ⟨N, h⟩ := h
  refine ⟨N + 1, fun n hn => ?_⟩
  obtain ⟨m, rfl⟩ : ∃ m, n = m + 1 := ⟨n - 1, by omega⟩
  exact h m (by omega)

theorem Ev.bind {α β : Type} {f : Nat → Option α} {g : Nat → α → Option β} {a : α} {x : β} (hf : Ev f a)
    (hg : Ev (fun n => g n a) x) : Ev (fun n => (f n).bind (g n)) x := by
  obtain ⟨N, hf⟩ := hf
  obtain ⟨M, hg⟩ := hg
  refine ⟨max N M, fun n hn => ?_⟩
  simp only [hf n (by omega), Option.bind_some, hg n (by omega)]

theorem Ev.congr {α : Type} {f g : Nat → Option α} {x : α} (h : Ev g x) (e : ∀ n, f n = g n) : Ev f x := by
  obtain ⟨N, h⟩ := h
  exact ⟨N, fun n hn => (e n).trans (h n hn)⟩

/-! ## Where an expression ends -/

/-- The strength at which a token goes on with the expression before it. -/
def reach : Tok → Option Nat
  | .op .eqEq | .op .ge => some 0
  | .op .bar => some 1
  | .op .amp => some 2
  | .op .shl | .op .shr => some 3
  | .op .plus | .op .minus => some 4
  | .kw .as => some 5
  | .op .quest | .op .dot => some 7
  | .op .lparen | .op .lbrace | .op .colon2 | .op .lt => some 8
  | _ => none

/-- The tokens do not go on with an expression of strength `l` or more. -/
def Stops (l : Nat) : List Tok → Prop
  | [] => True
  | t :: _ => ∀ k, reach t = some k → k < l

theorem Stops.mono {l m : Nat} (hlm : l ≤ m) {ts : List Tok} (h : Stops l ts) : Stops m ts := by
  cases ts with
  | nil => trivial
  | cons t ts => exact fun k hk => by have := h k hk; omega

theorem reach_infix {o : Op} {m : Nat} {b : BinOp} (h : infixOp o = some (m, b)) : reach (.op o) = some m := by
  cases o <;> simp [infixOp] at h <;> obtain ⟨rfl, rfl⟩ := h <;> rfl

theorem infix_op (o : BinOp) : infixOp o.op = some (o.strength, o) := by cases o <;> rfl

theorem reach_op (o : BinOp) : reach (.op o.op) = some o.strength := by cases o <;> rfl

theorem bin_stop (r : Rules) (c : Ctx) (l : Nat) (e : Expr) {rest : List Tok} (h : Stops l rest) :
    binP r c l e rest = some (e, rest) := by
  unfold binP
  split
  · rename_i o us
    cases hi : infixOp o with
    | none => rfl
    | some p =>
      have := h p.1 (reach_infix (b := p.2) hi)
      have : Nat.beq l p.1 = false := by
        rw [Bool.eq_false_iff]; intro h; have := Nat.eq_of_beq_eq_true h; omega
      simp only [this]
  · rfl

theorem cast_stop (r : Rules) (c : Ctx) (e : Expr) {rest : List Tok} (h : Stops 5 rest) :
    castP r c e rest = some (e, rest) := by
  unfold castP
  split
  · exact absurd (h 5 rfl) (by decide)
  · rfl

theorem post_stop (r : Rules) (c : Ctx) (e : Expr) {rest : List Tok} (h : Stops 7 rest) :
    postP r c e rest = some (e, rest) := by
  cases rest with
  | nil => rfl
  | cons t ts => cases t with
    | op o => cases o with
      | quest => exact absurd (h 7 rfl) (by decide)
      | dot => exact absurd (h 7 rfl) (by decide)
      | _ => rfl
    | _ => rfl

/-! ## What reading tokens at a level means -/

/-- The first token of an expression of strength `l`. -/
def First (l : Nat) : List Tok → Prop
  | .num _ none :: _ => True
  | .name _ :: _ => True
  | .op .lparen :: _ => True
  | .op .minus :: _ => l ≤ 6
  | _ => False

/-- What follows an expression of strength `l` is read on from the expression. -/
def follow (n : Nat) (c : Ctx) (l : Nat) (e : Expr) (ts : List Tok) : Option (Expr × List Tok) :=
  match l with
  | 5 => (rules n).cast c e ts
  | 6 => some (e, ts)
  | 7 => (rules n).post c e ts
  | l => (rules n).bin c l e ts

/-- Reading an expression of strength `l`. -/
def start (n : Nat) (c : Ctx) (l : Nat) (ts : List Tok) : Option (Expr × List Tok) :=
  match l with
  | 6 => (rules n).unary c ts
  | 7 => (primary (rules n) c ts).bind fun p => (rules n).post c p.1 p.2
  | l => (rules n).expr c l ts

/-- The tokens are read as the expression at strength `l`, whatever follows. -/
def Reads (l : Nat) (ts : List Tok) (e : Expr) : Prop :=
  First l ts ∧ ∀ c rest x, Stops (l + 1) rest → Ev (fun n => follow n c l e rest) x →
    Ev (fun n => start n c l (ts ++ rest)) x

theorem First.mono {l : Nat} {ts : List Tok} (h : First (l + 1) ts) : First l ts := by
  unfold First at h ⊢
  split at h <;> first | trivial | exact h.elim | exact Nat.le_of_succ_le h

/-- `return` does not start such an expression. -/
theorem expr_start (r : Rules) (c : Ctx) (l : Nat) (hl : l ≤ 4) {ts : List Tok} (h : First l ts) (rest : List Tok) :
    exprP r c l (ts ++ rest) = (r.expr c (l + 1) (ts ++ rest)).bind fun p => r.bin c l p.1 p.2 := by
  unfold First at h
  split at h
  case h_5 => exact h.elim
  all_goals
    obtain rfl | rfl | rfl | rfl | rfl : l = 0 ∨ l = 1 ∨ l = 2 ∨ l = 3 ∨ l = 4 := by omega
    all_goals rfl

theorem unary_start (r : Rules) (c : Ctx) {ts : List Tok} (h : First 7 ts) (rest : List Tok) :
    unaryP r c (ts ++ rest) = (primary r c (ts ++ rest)).bind fun p => r.post c p.1 p.2 := by
  unfold First at h
  split at h
  case h_4 => omega
  case h_5 => exact h.elim
  all_goals rfl

theorem follow_stop (c : Ctx) (l : Nat) (hl : l ≤ 7) (e : Expr) {rest : List Tok} (h : Stops l rest) :
    Ev (fun n => follow n c l e rest) (e, rest) := by
  refine Ev.succ (Ev.const fun n => ?_)
  obtain rfl | rfl | rfl | rfl | rfl | rfl | rfl | rfl :
    l = 0 ∨ l = 1 ∨ l = 2 ∨ l = 3 ∨ l = 4 ∨ l = 5 ∨ l = 6 ∨ l = 7 := by omega
  · exact bin_stop _ c _ e h
  · exact bin_stop _ c _ e h
  · exact bin_stop _ c _ e h
  · exact bin_stop _ c _ e h
  · exact bin_stop _ c _ e h
  · exact cast_stop _ c e h
  · rfl
  · exact post_stop _ c e h

/-- Read whole, if nothing follows. -/
theorem Reads.whole {l : Nat} {ts : List Tok} {e : Expr} (h : Reads l ts e) (hl : l ≤ 7) (c : Ctx) {rest : List Tok}
    (hr : Stops l rest) : Ev (fun n => start n c l (ts ++ rest)) (e, rest) :=
  h.2 c rest _ (hr.mono (by omega)) (follow_stop c l hl e hr)

/-- An expression of greater strength is one of less. -/
theorem Reads.down {l : Nat} (hl : l ≤ 6) {ts : List Tok} {e : Expr} (h : Reads (l + 1) ts e) : Reads l ts e := by
  refine ⟨h.1.mono, fun c rest x hr hx => ?_⟩
  have hw := h.whole (by omega) c hr
  refine Ev.succ ?_
  have hf := h.1
  by_cases h4 : l ≤ 4
  · have hx' : Ev (fun n => (rules n).bin c l e rest) x := by
      obtain rfl | rfl | rfl | rfl | rfl : l = 0 ∨ l = 1 ∨ l = 2 ∨ l = 3 ∨ l = 4 := by omega
      all_goals exact hx
    have hw' : Ev (fun n => (rules n).expr c (l + 1) (ts ++ rest)) (e, rest) := by
      obtain rfl | rfl | rfl | rfl | rfl : l = 0 ∨ l = 1 ∨ l = 2 ∨ l = 3 ∨ l = 4 := by omega
      all_goals exact hw
    refine (Ev.bind (g := fun n p => (rules n).bin c l p.1 p.2) hw' hx').congr fun n => ?_
    refine Eq.trans ?_ (expr_start (rules n) c l h4 hf.mono rest)
    obtain rfl | rfl | rfl | rfl | rfl : l = 0 ∨ l = 1 ∨ l = 2 ∨ l = 3 ∨ l = 4 := by omega
    all_goals rfl
  · obtain rfl | rfl : l = 5 ∨ l = 6 := by omega
    · exact (Ev.bind (g := fun n (p : Expr × List Tok) => (rules n).cast c p.1 p.2) hw hx).congr fun n => rfl
    · obtain ⟨N, hx⟩ := hx
      have : x = (e, rest) := (Option.some.inj (hx N (by omega))).symm
      subst this
      exact hw.congr fun n => unary_start (rules n) c hf rest

theorem Reads.le {l m : Nat} (hlm : l ≤ m) (hm : m ≤ 7) {ts : List Tok} {e : Expr} (h : Reads m ts e) :
    Reads l ts e := by
  induction m with
  | zero => obtain rfl : l = 0 := by omega
            exact h
  | succ m ih =>
    by_cases e : l = m + 1
    · subst e; exact h
    · exact ih (by omega) (by omega) (h.down (by omega))

/-- Parentheses make an operand. -/
theorem Reads.paren {ts : List Tok} {e : Expr} (h : Reads 0 ts e) : Reads 7 (paren true ts) e := by
  refine ⟨trivial, fun c rest x _ hx => ?_⟩
  have hw := h.whole (by omega) { c with structOk := true } (rest := .op .rparen :: rest)
    (fun k hk => by cases hk)
  have hp : Ev (fun n => primary (rules n) c (Source.paren true ts ++ rest)) (e, rest) := by
    refine (Ev.bind (g := fun _ p => (want .rparen p.2).bind fun us => some (p.1, us)) hw
      (Ev.const fun _ => rfl)).congr fun n => ?_
    simp only [Source.paren, List.cons_append, List.append_assoc, List.nil_append]
    rfl
  exact Ev.bind (g := fun n (p : Expr × List Tok) => (rules n).post c p.1 p.2) hp hx

theorem reads_paren {ts : List Tok} {e : Expr} {s l : Nat} (hs : s ≤ 7) (hl : l ≤ 7) (h : Reads s ts e) :
    Reads l (paren (Nat.blt s l) ts) e := by
  cases hb : Nat.blt s l with
  | true => exact (h.le (by omega) hs).paren.le hl (by omega)
  | false =>
    refine h.le ?_ hs
    have : ¬ s < l := fun h => by
      have : Nat.blt s l = true := by rw [Nat.blt_eq]; exact h
      rw [hb] at this; cases this
    omega

/-! ## The cases -/

theorem reads_num (n : Nat) : Reads 7 [.num n none] (.lit n) :=
  ⟨trivial, fun _ _ _ _ hx => hx⟩

theorem reads_name {x : Nat} {i : Id} (h : ident x = some i) (hi : i ≠ .None) : Reads 7 [.name x] (.var i) := by
  refine ⟨trivial, fun c rest y hr hy => ?_⟩
  refine Ev.bind (a := (.var i, rest)) (g := fun n (p : Expr × List Tok) => (rules n).post c p.1 p.2)
    (Ev.succ (Ev.const fun n => ?_)) hy
  have hs : segsP (rules n) rest = some ([], rest) := by
    cases rest with
    | nil => rfl
    | cons t ts => cases t with
      | op o => cases o with
        | colon2 => exact absurd (hr 8 rfl) (by decide)
        | _ => rfl
      | _ => rfl
  have hp : primary (rules (n + 1)) c (.name x :: rest) =
      (segsP (rules n) rest).bind fun p => pathExpr (rules (n + 1)) c x p.1 p.2 := by
    show ((segsP (rules n) rest).bind fun p => some ((x, p.1), p.2)).bind _ = _
    cases segsP (rules n) rest <;> rfl
  show primary (rules (n + 1)) c (.name x :: rest) = _
  rw [hp, hs]
  show pathExpr (rules (n + 1)) c x [] rest = _
  have hv : pathExpr (rules (n + 1)) c x [] rest = (ident x).bind fun i => match i with
      | .None => some (Expr.variant .Option .None, rest)
      | i => some (.var i, rest) := by
    cases rest with
    | nil => cases c.structOk <;> rfl
    | cons t ts => cases t with
      | op o => cases o with
        | lparen => exact absurd (hr 8 rfl) (by decide)
        | lbrace => exact absurd (hr 8 rfl) (by decide)
        | _ => cases c.structOk <;> rfl
      | _ => cases c.structOk <;> rfl
  rw [hv, h, Option.bind_some]
  split
  · exact absurd rfl hi
  · rfl

theorem reads_neg {ts : List Tok} {e : Expr} (h : Reads 6 ts e) : Reads 6 (.op .minus :: ts) (.neg e) := by
  refine ⟨Nat.le_refl 6, fun c rest x hr hx => ?_⟩
  obtain ⟨N, hx⟩ := hx
  have : x = (.neg e, rest) := (Option.some.inj (hx N (by omega))).symm
  subst this
  refine Ev.succ ?_
  exact (Ev.bind (g := fun _ p => some (.neg p.1, p.2)) (h.2 c rest (e, rest) hr (Ev.const fun _ => rfl))
    (Ev.const fun _ => rfl)).congr fun n => rfl

theorem ty_spelled (r : Rules) (c : Ctx) (t : IntTy) {rest : List Tok} (h : Stops 6 rest) :
    tyP r c (.name (spell t.spelled 0) :: rest) = some (t.ty, rest) := by
  have ha : tyArgs r c rest = some ([], rest) := by
    cases rest with
    | nil => rfl
    | cons u us => cases u with
      | op o => cases o with
        | lt => exact absurd (h 8 rfl) (by decide)
        | _ => rfl
      | _ => rfl
  have hn : namedTy c (some (spell t.spelled 0)) [] = t.ty := by cases t <;> rfl
  have hp : tyP r c (.name (spell t.spelled 0) :: rest) =
      (tyArgs r c rest).bind fun p => some (namedTy c (some (spell t.spelled 0)) p.1, p.2) := by
    cases rest with
    | nil => rfl
    | cons u us => cases u with
      | op o => cases o with
        | colon2 => exact absurd (h 8 rfl) (by decide)
        | _ => rfl
      | _ => rfl
  rw [hp, ha]
  simp only [Option.bind_some, hn]

theorem reads_cast {ts : List Tok} {e : Expr} (t : IntTy) (h : Reads 5 ts e) :
    Reads 5 (ts ++ [.kw .as, .name (spell t.spelled 0)]) (.cast e t.ty) := by
  refine ⟨?_, fun c rest x hr hx => ?_⟩
  · have := h.1
    unfold First at this ⊢
    split at this <;> first | trivial | exact this.elim | exact this
  · rw [List.append_assoc]
    refine h.2 c _ x (fun k hk => by cases hk; decide) (Ev.succ ?_)
    refine (Ev.bind (g := fun n p => (rules n).cast c (.cast e p.1) p.2) (f := fun n =>
      (rules n).ty c (.name (spell t.spelled 0) :: rest)) (Ev.succ (Ev.const fun n => ty_spelled _ c t hr)) hx).congr
      fun n => rfl

theorem first_append {l : Nat} {ts : List Tok} (h : First l ts) (us : List Tok) : First l (ts ++ us) := by
  unfold First at h
  split at h
  case h_5 => exact h.elim
  all_goals first | trivial | exact h

theorem reads_unwrap {ts : List Tok} {e : Expr} (h : Reads 7 ts e) :
    Reads 7 (ts ++ [.op .dot, .kw .unwrap, .op .lparen, .op .rparen]) (.unwrap e) := by
  refine ⟨first_append h.1 _, fun c rest x hr hx => ?_⟩
  rw [List.append_assoc]
  refine h.2 c _ x (fun k hk => by cases hk; decide) (Ev.succ ?_)
  exact Ev.congr hx fun n => rfl

theorem reads_question {ts : List Tok} {e : Expr} (h : Reads 7 ts e) : Reads 7 (ts ++ [.op .quest]) (.question e) := by
  refine ⟨first_append h.1 _, fun c rest x hr hx => ?_⟩
  rw [List.append_assoc]
  refine h.2 c _ x (fun k hk => by cases hk; decide) (Ev.succ ?_)
  exact Ev.congr hx fun n => rfl

theorem reads_field {ts : List Tok} {e : Expr} {f : Nat} {i : Id} (hi : ident f = some i) (h : Reads 7 ts e) :
    Reads 7 (ts ++ [.op .dot, .name f]) (.field e i) := by
  refine ⟨first_append h.1 _, fun c rest x hr hx => ?_⟩
  rw [List.append_assoc]
  refine h.2 c _ x (fun k hk => by cases hk; decide) (Ev.succ ?_)
  refine Ev.congr hx fun n => ?_
  have hp : postP (rules n) c e (.op .dot :: .name f :: rest) =
      (ident f).bind fun i => (rules n).post c (.field e i) rest := by
    cases rest with
    | nil => rfl
    | cons u us => cases u with
      | op o => cases o with
        | lparen => exact absurd (hr 8 rfl) (by decide)
        | _ => rfl
      | _ => rfl
  exact hp.trans (by rw [hi]; rfl)

theorem reads_method {ts us : List Tok} {e : Expr} {as : List Expr} {f : Nat} {i : Id} (hi : ident f = some i)
    (h : Reads 7 ts e)
    (ha : ∀ c rest, Ev (fun n => (rules n).args c .rparen (us ++ .op .rparen :: rest)) (as, rest)) :
    Reads 7 (ts ++ (.op .dot :: .name f :: .op .lparen :: (us ++ [.op .rparen]))) (.method e i (exprs as)) := by
  refine ⟨first_append h.1 _, fun c rest x hr hx => ?_⟩
  rw [List.append_assoc]
  refine h.2 c _ x (fun k hk => by cases hk; decide) (Ev.succ ?_)
  simp only [List.cons_append, List.append_assoc, List.nil_append]
  refine (Ev.bind (g := fun n (p : List Expr × List Tok) => (rules n).post c (.method e i (exprs p.1)) p.2)
    (ha { c with structOk := true } rest) hx).congr fun n => ?_
  have hp : postP (rules n) c e (.op .dot :: .name f :: .op .lparen :: (us ++ .op .rparen :: rest)) =
      (ident f).bind fun i => ((rules n).args { c with structOk := true } .rparen (us ++ .op .rparen :: rest)).bind
        fun p => (rules n).post c (.method e i (exprs p.1)) p.2 := rfl
  exact hp.trans (by rw [hi]; rfl)

theorem reads_bin {ts us : List Tok} {a b : Expr} (o : BinOp) (ha : Reads o.left ts a)
    (hb : Reads (o.strength + 1) us b) : Reads o.strength (ts ++ .op o.op :: us) (.bin o a b) := by
  have hs : o.strength ≤ 4 := by cases o <;> decide
  have hl : o.strength ≤ o.left := by cases o <;> decide
  have hl7 : o.left ≤ 7 := by cases o <;> decide
  have ha := ha.le hl hl7
  refine ⟨first_append ha.1 _, fun c rest x hr hx => ?_⟩
  rw [List.append_assoc]
  refine ha.2 c _ x (fun k hk => by rw [reach_op] at hk; cases hk; omega) (Ev.succ ?_)
  have hw := hb.whole (by omega) c hr
  have hw' : Ev (fun n => (rules n).expr c (o.strength + 1) (us ++ rest)) (b, rest) := by cases o <;> exact hw
  have hx' : Ev (fun n => (rules n).bin c o.strength (.bin o a b) rest) x := by cases o <;> exact hx
  refine (Ev.bind (g := fun n p => (rules n).bin c o.strength (.bin o a p.1) p.2) hw' hx').congr fun n => ?_
  cases o <;> rfl

/-! ## All expressions -/

theorem args_nil (c : Ctx) (rest : List Tok) :
    Ev (fun n => (rules n).args c .rparen (.op .rparen :: rest)) ([], rest) :=
  Ev.succ (Ev.const fun _ => rfl)

theorem args_want {l : Nat} {ts : List Tok} (h : First l ts) (us : List Tok) : want .rparen (ts ++ us) = none := by
  unfold First at h
  split at h
  case h_5 => exact h.elim
  all_goals rfl

theorem args_last {ts : List Tok} {e : Expr} (h : Reads 0 ts e) (c : Ctx) (rest : List Tok) :
    Ev (fun n => (rules n).args c .rparen (ts ++ .op .rparen :: rest)) ([e], rest) := by
  have hw := h.whole (by omega) c (rest := .op .rparen :: rest) (fun k hk => by cases hk)
  obtain ⟨N, hw⟩ := hw
  refine Ev.succ ⟨N, fun n hn => ?_⟩
  show argsP (rules n) c .rparen (ts ++ .op .rparen :: rest) = _
  have hw : (rules n).expr c 0 (ts ++ .op .rparen :: rest) = _ := hw n hn
  unfold argsP
  simp only [args_want h.1, hw, bind, Option.bind_some]
  rfl

theorem args_cons {ts us : List Tok} {e : Expr} {es : List Expr} (h : Reads 0 ts e)
    (hu : ∀ c rest, Ev (fun n => (rules n).args c .rparen (us ++ .op .rparen :: rest)) (es, rest)) (c : Ctx)
    (rest : List Tok) :
    Ev (fun n => (rules n).args c .rparen (ts ++ .op .comma :: (us ++ .op .rparen :: rest))) (e :: es, rest) := by
  have hw := h.whole (by omega) c (rest := .op .comma :: (us ++ .op .rparen :: rest)) (fun k hk => by cases hk)
  obtain ⟨N, hw⟩ := hw
  obtain ⟨M, hu⟩ := hu c rest
  refine Ev.succ ⟨max N M, fun n hn => ?_⟩
  show argsP (rules n) c .rparen (ts ++ .op .comma :: (us ++ .op .rparen :: rest)) = _
  have hw : (rules n).expr c 0 (ts ++ .op .comma :: (us ++ .op .rparen :: rest)) = _ := hw n (by omega)
  have hu : (rules n).args c .rparen (us ++ .op .rparen :: rest) = _ := hu n (by omega)
  unfold argsP
  simp only [args_want h.1, hw, bind, Option.bind_some, hu]

mutual

theorem Term.reads : (t : Term) → t.Known → ∀ l, l ≤ 7 → Reads l (t.toks l) t.expr
  | .num n, _, l, hl => (reads_num n).le hl (by omega)
  | .name x, h, l, hl => by
    obtain ⟨i, hx, hi⟩ := h
    simp only [Term.expr, hx, Option.getD_some, Term.toks]
    exact (reads_name hx hi).le hl (by omega)
  | .neg a, h, l, hl => by
    simp only [Term.expr, Term.toks]
    exact reads_paren (by omega) hl (reads_neg (a.reads h 6 (by omega)))
  | .cast a t, h, l, hl => by
    simp only [Term.expr, Term.toks]
    exact reads_paren (by omega) hl (reads_cast t (a.reads h 5 (by omega)))
  | .unwrap a, h, l, hl => by
    simp only [Term.expr, Term.toks]
    exact (reads_unwrap (a.reads h 7 (by omega))).le hl (by omega)
  | .question a, h, l, hl => by
    simp only [Term.expr, Term.toks]
    exact (reads_question (a.reads h 7 (by omega))).le hl (by omega)
  | .field a x, h, l, hl => by
    obtain ⟨h, i, hi⟩ := h
    simp only [Term.expr, Term.toks, hi, Option.getD_some]
    exact (reads_field hi (a.reads h 7 (by omega))).le hl (by omega)
  | .method a f bs, h, l, hl => by
    obtain ⟨h, ⟨i, hi⟩, hb⟩ := h
    simp only [Term.expr, Term.toks, hi, Option.getD_some]
    exact (reads_method hi (a.reads h 7 (by omega)) (bs.reads hb)).le hl (by omega)
  | .bin o a b, h, l, hl => by
    simp only [Term.expr, Term.toks]
    exact reads_paren (by cases o <;> decide) hl
      (reads_bin o (a.reads h.1 _ (by cases o <;> decide)) (b.reads h.2 _ (by cases o <;> decide)))

theorem Terms.reads : (bs : Terms) → bs.Known → ∀ c rest,
    Ev (fun n => (rules n).args c .rparen (bs.toks ++ .op .rparen :: rest)) (bs.exprs, rest)
  | .nil, _, c, rest => args_nil c rest
  | .cons a .nil, h, c, rest => args_last (a.reads h.1 0 (by omega)) c rest
  | .cons a (.cons b bs), h, c, rest => by
    have hb := Terms.reads (.cons b bs) h.2
    simp only [Terms.exprs, Terms.toks, List.append_assoc, List.cons_append]
    exact args_cons (a.reads h.1 0 (by omega)) hb c rest

end

/-! ## Numbers -/

theorem digit_char : ∀ d, d < 16 → digit d.digitChar.toNat = some d ∧ Nat.beq d.digitChar.toNat 95 = false ∧
    (Nat.beq d.digitChar.toNat 117).or (Nat.beq d.digitChar.toNat 105) = false := by
  decide

theorem digits_cons {b d : Nat} (hb : b ≤ 16) (hd : d < b) (cs : List Nat) (a : Nat) :
    digits b (d.digitChar.toNat :: cs) a = digits b cs (a * b + d) := by
  obtain ⟨h1, h2, h3⟩ := digit_char d (by omega)
  have h4 : Nat.blt d b = true := by rw [Nat.blt_eq]; exact hd
  rw [digits]
  simp only [h1, h2, h3, h4]

theorem digits_toDigits {b : Nat} (hb : 1 < b) (hb' : b ≤ 16) (n : Nat) (cs : List Nat) :
    digits b ((Nat.toDigits b n).map Char.toNat ++ cs) 0 = digits b cs n := by
  induction n using Nat.strongRecOn generalizing cs with
  | _ n ih =>
    by_cases h : n < b
    · rw [Nat.toDigits_of_lt_base h]
      simpa using digits_cons hb' h cs 0
    · rw [Nat.toDigits_of_base_le hb (by omega)]
      have hlt : n % b < b := Nat.mod_lt _ (by omega)
      simp only [List.map_append, List.append_assoc, List.map_cons, List.map_nil, List.cons_append, List.nil_append]
      rw [ih (n / b) (Nat.div_lt_self (by omega) hb), digits_cons hb' hlt]
      congr 1
      exact Nat.div_add_mod' n b

theorem mem_toDigits {b : Nat} (hb : 1 < b) (n : Nat) : ∀ c ∈ Nat.toDigits b n, ∃ d, d < b ∧ c = d.digitChar := by
  induction n using Nat.strongRecOn with
  | _ n ih =>
    by_cases h : n < b
    · rw [Nat.toDigits_of_lt_base h]
      exact fun c hc => ⟨n, h, by simpa using hc⟩
    · rw [Nat.toDigits_of_base_le hb (by omega)]
      intro c hc
      obtain hc | hc := List.mem_append.1 hc
      · exact ih (n / b) (Nat.div_lt_self (by omega) hb) c hc
      · exact ⟨n % b, Nat.mod_lt _ (by omega), by simpa using hc⟩

/-- Underscores between digits do not count. -/
theorem digits_underscore {b : Nat} (hb : b ≤ 16) (cs : List Nat)
    (h : ∀ c ∈ cs, c = 95 ∨ ∃ d, d < b ∧ c = d.digitChar.toNat) (a : Nat) :
    digits b cs a = digits b (cs.filter (· != 95)) a := by
  induction cs generalizing a with
  | nil => rfl
  | cons c cs ih =>
    have ih := ih fun x hx => h x (List.mem_cons_of_mem _ hx)
    obtain rfl | ⟨d, hd, rfl⟩ := h c List.mem_cons_self
    · exact ih a
    · have : (d.digitChar.toNat != 95) = true := by
        have := (digit_char d (by omega)).2.1
        rw [bne, Bool.not_eq_true', beq_eq_false_iff_ne]
        exact Nat.ne_of_beq_eq_false this
      rw [List.filter_cons_of_pos (by exact this), digits_cons hb hd, digits_cons hb hd, ih]

/-- The digits of a number, with underscores anywhere among them. -/
theorem digits_spelled {b : Nat} (hb : 1 < b) (hb' : b ≤ 16) {n : Nat} {cs : List Nat}
    (h : cs.filter (· != 95) = (Nat.toDigits b n).map Char.toNat) : digits b cs 0 = some (n, none) := by
  have hm : ∀ c ∈ cs, c = 95 ∨ ∃ d, d < b ∧ c = d.digitChar.toNat := by
    intro c hc
    by_cases e : c = 95
    · exact .inl e
    · have : c ∈ cs.filter (· != 95) := List.mem_filter.2 ⟨hc, by simpa using e⟩
      rw [h] at this
      obtain ⟨x, hx, rfl⟩ := List.mem_map.1 this
      obtain ⟨d, hd, rfl⟩ := mem_toDigits hb n x hx
      exact .inr ⟨d, hd, rfl⟩
  rw [digits_underscore hb' cs hm, h]
  simpa [digits] using digits_toDigits hb hb' n []

theorem started_spelled {b : Nat} (hb : 1 < b) (hb' : b ≤ 16) {n : Nat} {cs : List Nat}
    (h : cs.filter (· != 95) = (Nat.toDigits b n).map Char.toNat) : started cs = true := by
  have hn : (Nat.toDigits b n).map Char.toNat ≠ [] := by simp [Nat.toDigits_ne_nil]
  have hm : ∀ c ∈ (Nat.toDigits b n).map Char.toNat, (digit c).isSome = true := by
    intro c hc
    obtain ⟨x, hx, rfl⟩ := List.mem_map.1 hc
    obtain ⟨d, hd, rfl⟩ := mem_toDigits hb n x hx
    rw [(digit_char d (by omega)).1]
    rfl
  rw [← h] at hn hm
  clear h
  induction cs with
  | nil => exact absurd rfl hn
  | cons c cs ih =>
    rw [started]
    cases e : Nat.beq c 95 with
    | true =>
      obtain rfl := Nat.eq_of_beq_eq_true e
      exact ih hn hm
    | false => exact hm c (List.mem_filter.2 ⟨List.mem_cons_self, by simpa using Nat.ne_of_beq_eq_false e⟩)

/-- A number in base `b`. -/
theorem based_spelled {b : Nat} (hb : 1 < b) (hb' : b ≤ 16) {n : Nat} {cs : List Nat}
    (h : cs.filter (· != 95) = (Nat.toDigits b n).map Char.toNat) : based b cs = some (.num n none) := by
  rw [based, started_spelled hb hb' h, digits_spelled hb hb' h]

/-- A decimal number is not taken for one in another base. -/
theorem number_decimal {n : Nat} {cs : List Nat} (h : cs.filter (· != 95) = (Nat.toDigits 10 n).map Char.toNat) :
    number cs = some (.num n none) := by
  have hm : ∀ c ∈ cs, c ≤ 57 ∨ c = 95 := by
    intro c hc
    by_cases e : c = 95
    · exact .inr e
    · have : c ∈ cs.filter (· != 95) := List.mem_filter.2 ⟨hc, by simpa using e⟩
      rw [h] at this
      obtain ⟨x, hx, rfl⟩ := List.mem_map.1 this
      obtain ⟨d, hd, rfl⟩ := mem_toDigits (by decide) n x hx
      have : ∀ d, d < 10 → d.digitChar.toNat ≤ 57 := by decide
      exact .inl (this d hd)
  have hd := based_spelled (b := 10) (by decide) (by decide) h
  unfold number
  split
  · exact absurd (hm 98 (by simp)) (by decide)
  · exact absurd (hm 120 (by simp)) (by decide)
  · exact hd

end Raki.Source
