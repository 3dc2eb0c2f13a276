import Verif.Source.Branches
import Verif.Source.Avoid
import Verif.Source.Codes
import Verif.Source.Decode
import Verif.Lemmas.Opcode32
/-!
# The program without its dead branches

`dead` lists the branches no public call reaches.  Below, the functions with such branches are written out with
whatever other code in those places, and run.
-/

namespace Raki.Source
open Raki.Spec

set_option linter.constructorNameAsVariable false
set_option linter.unusedSimpArgs false
set_option maxHeartbeats 1000000

/-- Branches that no public call reaches. -/
def dead : List Branch := [
  ⟨.u16, .parse_opcode, 2⟩,
  ⟨.u32, .parse_opcode, 9⟩,
  ⟨.a_extension_bit_32, .parse_opcode, 13⟩,
  ⟨.a_extension_bit_32, .parse_opcode, 26⟩,
  ⟨.a_extension_bit_32, .parse_opcode, 28⟩,
  ⟨.base_i_bit_32, .parse_opcode, 50⟩,
  ⟨.base_i_bit_32, .parse_opcode, 66⟩,
  ⟨.base_i_bit_32, .parse_opcode, 73⟩,
  ⟨.base_i_bit_32, .parse_opcode, 74⟩,
  ⟨.base_i_bit_32, .parse_opcode, 87⟩,
  ⟨.base_i_bit_32, .parse_opcode, 92⟩,
  ⟨.c_extension_bit_16, .quadrant1, 20⟩,
  ⟨.c_extension_bit_16, .quadrant1, 25⟩,
  ⟨.c_extension_bit_16, .quadrant1, 26⟩,
  ⟨.c_extension_bit_16, .quadrant1, 30⟩,
  ⟨.c_extension_bit_16, .quadrant2, 12⟩,
  ⟨.m_extension_bit_32, .parse_opcode, 9⟩,
  ⟨.m_extension_bit_32, .parse_opcode, 17⟩,
  ⟨.zicboz_extension_bit_32, .parse_opcode, 6⟩,
  ⟨.zicboz_extension_bit_32, .parse_opcode, 7⟩,
  ⟨.zicfiss_extension_bit_32, .parse_opcode, 7⟩,
  ⟨.zicfiss_extension_bit_32, .parse_opcode, 12⟩,
  ⟨.zicfiss_extension_bit_16, .parse_opcode, 2⟩,
  ⟨.zicntr_extension_bit_32, .parse_opcode, 8⟩,
  ⟨.zicntr_extension_bit_32, .parse_opcode, 9⟩,
  ⟨.zicntr_extension_bit_32, .parse_opcode, 10⟩,
  ⟨.zicsr_extension_bit_32, .parse_opcode, 7⟩,
  ⟨.zicsr_extension_bit_32, .parse_opcode, 8⟩,
  ⟨.zifencei_extension_bit_32, .parse_opcode, 1⟩]

/-- Other code, for dead branches only. -/
def inDead (g : Branch → Option Expr) (b : Branch) : Option Expr := if b ∈ dead then g b else none

/-- The crate with other code in dead branches. -/
def crateWith (g : Branch → Option Expr) : List Fn := fill (inDead g) crate

open Lean Meta Elab Term in
/-- Walks over the term `e`, changing branch `k` with `f k`. -/
partial def fillTerm (f : Nat → Lean.Expr → Lean.Expr) (e : Lean.Expr) : StateM Nat Lean.Expr := do
  let numbered (a : Lean.Expr) : StateM Nat Lean.Expr := do
    let k ← get
    set (k + 1)
    let a ← fillTerm f a
    return f k a
  let c := e.getAppFn
  let as := e.getAppArgs
  let mut bs := #[]
  for h : i in [0:as.size] do
    let a := as[i]
    let isBranch := (c.isConstOf ``Source.Expr.ite && i ≥ 1) || (c.isConstOf ``Source.Expr.orElse && i == 2) ||
      (c.isConstOf ``Arms.cons && i == 1)
    bs := bs.push (← if isBranch then numbered a else fillTerm f a)
  return mkAppN c bs

open Lean Meta Elab Term in
/-- The definition `fn` written out, with `(g b).getD e` in place of the branches `b` in the list, where `e` is the
branch. -/
elab "filled% " fn:ident o:ident f:ident g:ident "[" ks:num,* "]" : term => do
  let c ← realizeGlobalConstNoOverloadWithInfo fn
  let .defnInfo d ← getConstInfo c | throwError "not a definition"
  let g ← elabTerm g none
  let o ← elabTerm o (Lean.mkConst ``Id)
  let f ← elabTerm f (Lean.mkConst ``Id)
  let ks := ks.getElems.map (·.getNat)
  let repl (k : Nat) (e : Lean.Expr) : Lean.Expr :=
    if ks.contains k then
      mkApp3 (Lean.mkConst ``Option.getD [0]) (Lean.mkConst ``Source.Expr)
        (mkApp g (mkApp3 (Lean.mkConst ``Branch.mk) o f (mkNatLit k))) e
    else e
  return (fillTerm repl d.value).run' 0

/-- `parse_opcode` of `u16` with other code in its dead branches. -/
def u16_parse_opcode_with (g : Branch → Option Expr) : Fn :=
  filled% u16_parse_opcode Id.u16 Id.parse_opcode g [2]

/-- `parse_opcode` of `u32` with other code in its dead branches. -/
def u32_parse_opcode_with (g : Branch → Option Expr) : Fn :=
  filled% u32_parse_opcode Id.u32 Id.parse_opcode g [9]

/-- `parse_opcode` of `a_extension_bit_32` with other code in its dead branches. -/
def a_extension_bit_32_parse_opcode_with (g : Branch → Option Expr) : Fn :=
  filled% a_extension_bit_32_parse_opcode Id.a_extension_bit_32 Id.parse_opcode g [13, 26, 28]

/-- `parse_opcode` of `base_i_bit_32` with other code in its dead branches. -/
def base_i_bit_32_parse_opcode_with (g : Branch → Option Expr) : Fn :=
  filled% base_i_bit_32_parse_opcode Id.base_i_bit_32 Id.parse_opcode g [50, 66, 73, 74, 87, 92]

/-- `quadrant1` of `c_extension_bit_16` with other code in its dead branches. -/
def c_extension_bit_16_quadrant1_with (g : Branch → Option Expr) : Fn :=
  filled% c_extension_bit_16_quadrant1 Id.c_extension_bit_16 Id.quadrant1 g [20, 25, 26, 30]

/-- `quadrant2` of `c_extension_bit_16` with other code in its dead branches. -/
def c_extension_bit_16_quadrant2_with (g : Branch → Option Expr) : Fn :=
  filled% c_extension_bit_16_quadrant2 Id.c_extension_bit_16 Id.quadrant2 g [12]

/-- `parse_opcode` of `m_extension_bit_32` with other code in its dead branches. -/
def m_extension_bit_32_parse_opcode_with (g : Branch → Option Expr) : Fn :=
  filled% m_extension_bit_32_parse_opcode Id.m_extension_bit_32 Id.parse_opcode g [9, 17]

/-- `parse_opcode` of `zicboz_extension_bit_32` with other code in its dead branches. -/
def zicboz_extension_bit_32_parse_opcode_with (g : Branch → Option Expr) : Fn :=
  filled% zicboz_extension_bit_32_parse_opcode Id.zicboz_extension_bit_32 Id.parse_opcode g [6, 7]

/-- `parse_opcode` of `zicfiss_extension_bit_32` with other code in its dead branches. -/
def zicfiss_extension_bit_32_parse_opcode_with (g : Branch → Option Expr) : Fn :=
  filled% zicfiss_extension_bit_32_parse_opcode Id.zicfiss_extension_bit_32 Id.parse_opcode g [7, 12]

/-- `parse_opcode` of `zicfiss_extension_bit_16` with other code in its dead branches. -/
def zicfiss_extension_bit_16_parse_opcode_with (g : Branch → Option Expr) : Fn :=
  filled% zicfiss_extension_bit_16_parse_opcode Id.zicfiss_extension_bit_16 Id.parse_opcode g [2]

/-- `parse_opcode` of `zicntr_extension_bit_32` with other code in its dead branches. -/
def zicntr_extension_bit_32_parse_opcode_with (g : Branch → Option Expr) : Fn :=
  filled% zicntr_extension_bit_32_parse_opcode Id.zicntr_extension_bit_32 Id.parse_opcode g [8, 9, 10]

/-- `parse_opcode` of `zicsr_extension_bit_32` with other code in its dead branches. -/
def zicsr_extension_bit_32_parse_opcode_with (g : Branch → Option Expr) : Fn :=
  filled% zicsr_extension_bit_32_parse_opcode Id.zicsr_extension_bit_32 Id.parse_opcode g [7, 8]

/-- `parse_opcode` of `zifencei_extension_bit_32` with other code in its dead branches. -/
def zifencei_extension_bit_32_parse_opcode_with (g : Branch → Option Expr) : Fn :=
  filled% zifencei_extension_bit_32_parse_opcode Id.zifencei_extension_bit_32 Id.parse_opcode g [1]

theorem call_with {g : Branch → Option Expr} {o f : Id} {fn fn' : Fn} (h : find crate o f = some fn)
    (h' : fn.fill (inDead g) = fn') (md : Build) (n : Nat) (args : List Val) :
    call (crateWith g) md (n + 1) o f args = run md (call (crateWith g) md n) fn' args := by
  rw [call, crateWith, find_fill, h, Option.map_some, h']

theorem call_u16_parse_opcode_with (g : Branch → Option Expr) (md : Build) (n : Nat) (args : List Val) :
    call (crateWith g) md (n + 1) .u16 .parse_opcode args = run md (call (crateWith g) md n) (u16_parse_opcode_with g) args :=
  call_with (fn := u16_parse_opcode) rfl (by kernel_rfl) md n args

theorem call_u32_parse_opcode_with (g : Branch → Option Expr) (md : Build) (n : Nat) (args : List Val) :
    call (crateWith g) md (n + 1) .u32 .parse_opcode args = run md (call (crateWith g) md n) (u32_parse_opcode_with g) args :=
  call_with (fn := u32_parse_opcode) rfl (by kernel_rfl) md n args

theorem call_a_extension_bit_32_parse_opcode_with (g : Branch → Option Expr) (md : Build) (n : Nat) (args : List Val) :
    call (crateWith g) md (n + 1) .a_extension_bit_32 .parse_opcode args = run md (call (crateWith g) md n) (a_extension_bit_32_parse_opcode_with g) args :=
  call_with (fn := a_extension_bit_32_parse_opcode) rfl (by kernel_rfl) md n args

theorem call_base_i_bit_32_parse_opcode_with (g : Branch → Option Expr) (md : Build) (n : Nat) (args : List Val) :
    call (crateWith g) md (n + 1) .base_i_bit_32 .parse_opcode args = run md (call (crateWith g) md n) (base_i_bit_32_parse_opcode_with g) args :=
  call_with (fn := base_i_bit_32_parse_opcode) rfl (by kernel_rfl) md n args

theorem call_c_extension_bit_16_quadrant1_with (g : Branch → Option Expr) (md : Build) (n : Nat) (args : List Val) :
    call (crateWith g) md (n + 1) .c_extension_bit_16 .quadrant1 args = run md (call (crateWith g) md n) (c_extension_bit_16_quadrant1_with g) args :=
  call_with (fn := c_extension_bit_16_quadrant1) rfl (by kernel_rfl) md n args

theorem call_c_extension_bit_16_quadrant2_with (g : Branch → Option Expr) (md : Build) (n : Nat) (args : List Val) :
    call (crateWith g) md (n + 1) .c_extension_bit_16 .quadrant2 args = run md (call (crateWith g) md n) (c_extension_bit_16_quadrant2_with g) args :=
  call_with (fn := c_extension_bit_16_quadrant2) rfl (by kernel_rfl) md n args

theorem call_m_extension_bit_32_parse_opcode_with (g : Branch → Option Expr) (md : Build) (n : Nat) (args : List Val) :
    call (crateWith g) md (n + 1) .m_extension_bit_32 .parse_opcode args = run md (call (crateWith g) md n) (m_extension_bit_32_parse_opcode_with g) args :=
  call_with (fn := m_extension_bit_32_parse_opcode) rfl (by kernel_rfl) md n args

theorem call_zicboz_extension_bit_32_parse_opcode_with (g : Branch → Option Expr) (md : Build) (n : Nat) (args : List Val) :
    call (crateWith g) md (n + 1) .zicboz_extension_bit_32 .parse_opcode args = run md (call (crateWith g) md n) (zicboz_extension_bit_32_parse_opcode_with g) args :=
  call_with (fn := zicboz_extension_bit_32_parse_opcode) rfl (by kernel_rfl) md n args

theorem call_zicfiss_extension_bit_32_parse_opcode_with (g : Branch → Option Expr) (md : Build) (n : Nat) (args : List Val) :
    call (crateWith g) md (n + 1) .zicfiss_extension_bit_32 .parse_opcode args = run md (call (crateWith g) md n) (zicfiss_extension_bit_32_parse_opcode_with g) args :=
  call_with (fn := zicfiss_extension_bit_32_parse_opcode) rfl (by kernel_rfl) md n args

theorem call_zicfiss_extension_bit_16_parse_opcode_with (g : Branch → Option Expr) (md : Build) (n : Nat) (args : List Val) :
    call (crateWith g) md (n + 1) .zicfiss_extension_bit_16 .parse_opcode args = run md (call (crateWith g) md n) (zicfiss_extension_bit_16_parse_opcode_with g) args :=
  call_with (fn := zicfiss_extension_bit_16_parse_opcode) rfl (by kernel_rfl) md n args

theorem call_zicntr_extension_bit_32_parse_opcode_with (g : Branch → Option Expr) (md : Build) (n : Nat) (args : List Val) :
    call (crateWith g) md (n + 1) .zicntr_extension_bit_32 .parse_opcode args = run md (call (crateWith g) md n) (zicntr_extension_bit_32_parse_opcode_with g) args :=
  call_with (fn := zicntr_extension_bit_32_parse_opcode) rfl (by kernel_rfl) md n args

theorem call_zicsr_extension_bit_32_parse_opcode_with (g : Branch → Option Expr) (md : Build) (n : Nat) (args : List Val) :
    call (crateWith g) md (n + 1) .zicsr_extension_bit_32 .parse_opcode args = run md (call (crateWith g) md n) (zicsr_extension_bit_32_parse_opcode_with g) args :=
  call_with (fn := zicsr_extension_bit_32_parse_opcode) rfl (by kernel_rfl) md n args

theorem call_zifencei_extension_bit_32_parse_opcode_with (g : Branch → Option Expr) (md : Build) (n : Nat) (args : List Val) :
    call (crateWith g) md (n + 1) .zifencei_extension_bit_32 .parse_opcode args = run md (call (crateWith g) md n) (zifencei_extension_bit_32_parse_opcode_with g) args :=
  call_with (fn := zifencei_extension_bit_32_parse_opcode) rfl (by kernel_rfl) md n args

/-- The functions that have dead branches or call a function that has. -/
def affected : Id → Bool
  | .parse_opcode | .quadrant0 | .quadrant1 | .quadrant2 | .decode | .try_from => true
  | _ => false

theorem inDead_none (g : Branch → Option Expr) (o f : Id) (k : Nat) (h : affected f = false) : inDead g ⟨o, f, k⟩ = none := by
  rw [inDead, if_neg]
  intro hm
  have ha : (dead.all fun b => affected b.fn) = true := rfl
  have := List.all_eq_true.mp ha _ hm
  rw [h] at this
  cases this

/-- The other functions run as before. -/
theorem call_other (g : Branch → Option Expr) (md : Build) (n : Nat) (o f : Id) (args : List Val) (h : affected f = false) :
    call (crateWith g) md n o f args = call crate md n o f args := by
  refine (call_agree (bad := affected) rfl ?_ ?_ md n o f args h).symm
  · intro o f h
    rw [crateWith, find_fill]
    cases hn : find crate o f with
    | none => rfl
    | some fn =>
      obtain ⟨-, -, rfl⟩ := find_name hn
      rw [Option.map_some, Fn.fill_none]
      exact fun k => inDead_none g _ _ k h
  · have h : (crate.all fun fn => affected fn.name || fn.body.avoids affected) = true := by kernel_rfl
    intro fn hm hb
    simpa [hb] using List.all_eq_true.mp h fn hm

theorem slice32_with (g : Branch → Option Expr) (md : Build) (n : Nat) (args : List Val) :
    call (crateWith g) md n .u32 .slice args = call crate md n .u32 .slice args := call_other g md n _ _ _ rfl

theorem slice16_with (g : Branch → Option Expr) (md : Build) (n : Nat) (args : List Val) :
    call (crateWith g) md n .u16 .slice args = call crate md n .u16 .slice args := call_other g md n _ _ _ rfl

theorem only_with (g : Branch → Option Expr) (md : Build) (n : Nat) (args : List Val) :
    call (crateWith g) md n .decode .only_rv64 args = call crate md n .decode .only_rv64 args :=
  call_other g md n _ _ _ rfl

/-- As `arms`, with the dead branches refuted by the hypotheses. -/
macro "live_arms" : tactic => `(tactic|
  (apply Eq.symm
   repeat' split
   all_goals first
     | rfl
     | (exfalso; (try simp only [imp_false] at *); omega)
     | ((try simp only [imp_false] at *)
        walk [only_with]
        try rfl)))

/-! ## The opcode parsers, called for words of their extension -/

theorem base_i_with (g : Branch → Option Expr) (md : Build) (n : Nat) (w : BitVec 32) (isa : Isa)
    (h : Ext32 w.toNat (.ok .BaseI)) :
    call (crateWith g) md (n + 2) .base_i_bit_32 .parse_opcode [.u32 w, emb isa] =
      outR (BaseI.parse_opcode w isa) := by
  rw [call_base_i_bit_32_parse_opcode_with]
  simp only [base_i_bit_32_parse_opcode_with, BaseI.parse_opcode]
  fields
  rl [slice32_with]
  simp only [Ext32] at h
  have h3 := fld_lt w.toNat 14 12
  generalize fld w.toNat 6 0 = f6_0 at *
  generalize fld w.toNat 14 12 = f14_12 at *
  generalize fld w.toNat 31 25 = f31_25 at *
  generalize fld w.toNat 31 26 = f31_26 at *
  generalize fld w.toNat 24 20 = f24_20 at *
  cases isa
  all_goals live_arms

theorem m_with (g : Branch → Option Expr) (md : Build) (n : Nat) (w : BitVec 32) (isa : Isa)
    (h : Ext32 w.toNat (.ok .M)) :
    call (crateWith g) md (n + 2) .m_extension_bit_32 .parse_opcode [.u32 w, emb isa] =
      outR (M.parse_opcode w isa) := by
  rw [call_m_extension_bit_32_parse_opcode_with]
  simp only [m_extension_bit_32_parse_opcode_with, M.parse_opcode]
  fields
  rl [slice32_with]
  simp only [Ext32] at h
  have h3 := fld_lt w.toNat 14 12
  generalize fld w.toNat 6 0 = f6_0 at *
  generalize fld w.toNat 14 12 = f14_12 at *
  cases isa
  all_goals live_arms

theorem a_with (g : Branch → Option Expr) (md : Build) (n : Nat) (w : BitVec 32) (isa : Isa)
    (h : Ext32 w.toNat (.ok .A)) :
    call (crateWith g) md (n + 2) .a_extension_bit_32 .parse_opcode [.u32 w, emb isa] =
      outR (A.parse_opcode w isa) := by
  rw [call_a_extension_bit_32_parse_opcode_with]
  simp only [a_extension_bit_32_parse_opcode_with, A.parse_opcode]
  fields
  rl [slice32_with]
  simp only [Ext32, List.mem_cons, List.not_mem_nil, or_false] at h
  have h6 := fld_lt w.toNat 6 0
  have h14 := fld_lt w.toNat 14 12
  have h31 := fld_lt w.toNat 31 27
  generalize fld w.toNat 6 0 = f6_0 at *
  generalize fld w.toNat 14 12 = f14_12 at *
  generalize fld w.toNat 31 27 = f31_27 at *
  cases isa
  all_goals live_arms

theorem zifencei_with (g : Branch → Option Expr) (md : Build) (n : Nat) (w : BitVec 32)
    (h : Ext32 w.toNat (.ok .Zifencei)) :
    call (crateWith g) md (n + 2) .zifencei_extension_bit_32 .parse_opcode [.u32 w] =
      outR (Zifencei.parse_opcode w) := by
  rw [call_zifencei_extension_bit_32_parse_opcode_with]
  simp only [zifencei_extension_bit_32_parse_opcode_with, Zifencei.parse_opcode]
  fields
  rl [slice32_with]
  simp only [Ext32] at h
  have h6 := fld_lt w.toNat 6 0
  generalize fld w.toNat 6 0 = f6_0 at *
  live_arms

theorem zicboz_with (g : Branch → Option Expr) (md : Build) (n : Nat) (w : BitVec 32)
    (h : Ext32 w.toNat (.ok .Zicboz)) :
    call (crateWith g) md (n + 2) .zicboz_extension_bit_32 .parse_opcode [.u32 w] =
      outR (Zicboz.parse_opcode w) := by
  rw [call_zicboz_extension_bit_32_parse_opcode_with]
  simp only [zicboz_extension_bit_32_parse_opcode_with, Zicboz.parse_opcode]
  fields
  rl [slice32_with]
  simp only [Ext32] at h
  have h6 := fld_lt w.toNat 6 0
  have h14 := fld_lt w.toNat 14 12
  have h11 := fld_lt w.toNat 11 7
  obtain ⟨x31_20, hx31_20, hy31_20⟩ := widen16 w.toNat 31 20 (by decide)
  rw [hx31_20, hy31_20]
  try rw [hy31_20] at h
  clear hx31_20 hy31_20
  generalize fld w.toNat 6 0 = f6_0 at *
  generalize fld w.toNat 14 12 = f14_12 at *
  generalize fld w.toNat 11 7 = f11_7 at *
  live_arms

theorem zicsr_with (g : Branch → Option Expr) (md : Build) (n : Nat) (w : BitVec 32)
    (h : Ext32 w.toNat (.ok .Zicsr)) :
    call (crateWith g) md (n + 2) .zicsr_extension_bit_32 .parse_opcode [.u32 w] =
      outR (Zicsr.parse_opcode w) := by
  rw [call_zicsr_extension_bit_32_parse_opcode_with]
  simp only [zicsr_extension_bit_32_parse_opcode_with, Zicsr.parse_opcode]
  fields
  rl [slice32_with]
  simp only [Ext32] at h
  have h6 := fld_lt w.toNat 6 0
  have h14 := fld_lt w.toNat 14 12
  generalize fld w.toNat 6 0 = f6_0 at *
  generalize fld w.toNat 14 12 = f14_12 at *
  live_arms

theorem zicntr_with (g : Branch → Option Expr) (md : Build) (n : Nat) (w : BitVec 32)
    (h : Ext32 w.toNat (.ok .Zicntr)) :
    call (crateWith g) md (n + 2) .zicntr_extension_bit_32 .parse_opcode [.u32 w] =
      outR (Zicntr.parse_opcode w) := by
  rw [call_zicntr_extension_bit_32_parse_opcode_with]
  simp only [zicntr_extension_bit_32_parse_opcode_with, Zicntr.parse_opcode]
  fields
  rl [slice32_with]
  simp only [Ext32, counterCsr] at h
  have h6 := fld_lt w.toNat 6 0
  have h14 := fld_lt w.toNat 14 12
  obtain ⟨x31_20, hx31_20, hy31_20⟩ := widen16 w.toNat 31 20 (by decide)
  rw [hx31_20, hy31_20]
  try rw [hy31_20] at h
  clear hx31_20 hy31_20
  generalize fld w.toNat 6 0 = f6_0 at *
  generalize fld w.toNat 14 12 = f14_12 at *
  live_arms

theorem zicfiss_with (g : Branch → Option Expr) (md : Build) (n : Nat) (w : BitVec 32)
    (h : Ext32 w.toNat (.ok .Zicfiss)) :
    call (crateWith g) md (n + 2) .zicfiss_extension_bit_32 .parse_opcode [.u32 w] =
      outR (Zicfiss.parse_opcode w) := by
  rw [call_zicfiss_extension_bit_32_parse_opcode_with]
  simp only [zicfiss_extension_bit_32_parse_opcode_with, Zicfiss.parse_opcode]
  fields
  rl [slice32_with]
  simp only [Ext32] at h
  have h6 := fld_lt w.toNat 6 0
  have h14 := fld_lt w.toNat 14 12
  have h31 := fld_lt w.toNat 31 27
  have h19 := fld_lt w.toNat 19 15
  obtain ⟨x31_20, hx31_20, hy31_20⟩ := widen16 w.toNat 31 20 (by decide)
  rw [hx31_20, hy31_20]
  try rw [hy31_20] at h
  clear hx31_20 hy31_20
  generalize fld w.toNat 6 0 = f6_0 at *
  generalize fld w.toNat 14 12 = f14_12 at *
  generalize fld w.toNat 31 27 = f31_27 at *
  generalize fld w.toNat 19 15 = f19_15 at *
  live_arms

theorem priv_with (g : Branch → Option Expr) (md : Build) (n : Nat) (w : BitVec 32) :
    call (crateWith g) md (n + 2) .priv_extension_bit_32 .parse_opcode [.u32 w] =
      outR (Priv.parse_opcode w) := by
  rw [call_with (fn := priv_extension_bit_32_parse_opcode) (fn' := priv_extension_bit_32_parse_opcode) rfl
    (by kernel_rfl)]
  simp only [priv_extension_bit_32_parse_opcode, Priv.parse_opcode]
  fields
  rl [slice32_with]
  generalize fld w.toNat 6 0 = f6_0
  generalize fld w.toNat 14 12 = f14_12
  generalize fld w.toNat 31 25 = f31_25
  arms []

theorem zicfiss16_with (g : Branch → Option Expr) (md : Build) (n : Nat) (w : BitVec 16) (isa : Isa)
    (h : U16.parse_extension w = .ok .Zicfiss) :
    call (crateWith g) md (n + 2) .zicfiss_extension_bit_16 .parse_opcode [.u16 w, emb isa] =
      outR (Zicfiss16.parse_opcode w isa) := by
  rw [call_zicfiss_extension_bit_16_parse_opcode_with]
  simp only [zicfiss_extension_bit_16_parse_opcode_with, Zicfiss16.parse_opcode]
  rl []
  have h : w.toNat = 0x6081 ∨ w.toNat = 0x6281 := by
    unfold U16.parse_extension at h
    split at h
    · omega
    · omega
    · cases h
  cases isa
  all_goals live_arms

theorem quadrant0_with (g : Branch → Option Expr) (md : Build) (n : Nat) (w : BitVec 16) (opmap : Nat) (isa : Isa) :
    call (crateWith g) md (n + 2) .c_extension_bit_16 .quadrant0 [.u16 w, .u8 opmap, emb isa] =
      outR (C.quadrant0 w opmap isa) := by
  rw [call_with (fn := c_extension_bit_16_quadrant0) (fn' := c_extension_bit_16_quadrant0) rfl (by kernel_rfl)]
  simp only [c_extension_bit_16_quadrant0, C.quadrant0]
  rl []
  cases isa
  all_goals arms [only_with]

theorem quadrant1_with (g : Branch → Option Expr) (md : Build) (n : Nat) (w : BitVec 16) (opmap : Nat) (isa : Isa)
    (h : opmap < 8) :
    call (crateWith g) md (n + 2) .c_extension_bit_16 .quadrant1 [.u16 w, .u8 opmap, emb isa] =
      outR (C.quadrant1 w opmap isa) := by
  rw [call_c_extension_bit_16_quadrant1_with]
  simp only [c_extension_bit_16_quadrant1_with, C.quadrant1]
  fields
  rl [slice16_with]
  have h11 := fld_lt w.toNat 11 10
  have h6 := fld_lt w.toNat 6 5
  have h12 := fld_lt w.toNat 12 12
  generalize fld w.toNat 11 10 = f11_10 at *
  generalize fld w.toNat 6 5 = f6_5 at *
  generalize fld w.toNat 11 7 = f11_7 at *
  generalize fld w.toNat 12 12 = f12_12 at *
  cases isa
  all_goals live_arms

theorem quadrant2_with (g : Branch → Option Expr) (md : Build) (n : Nat) (w : BitVec 16) (opmap : Nat) (isa : Isa)
    (h : opmap < 8) :
    call (crateWith g) md (n + 2) .c_extension_bit_16 .quadrant2 [.u16 w, .u8 opmap, emb isa] =
      outR (C.quadrant2 w opmap isa) := by
  rw [call_c_extension_bit_16_quadrant2_with]
  simp only [c_extension_bit_16_quadrant2_with, C.quadrant2]
  fields
  rl [slice16_with]
  have h12 := fld_lt w.toNat 12 12
  generalize fld w.toNat 6 2 = f6_2 at *
  generalize fld w.toNat 11 7 = f11_7 at *
  generalize fld w.toNat 12 12 = f12_12 at *
  cases isa
  all_goals live_arms

theorem c_with (g : Branch → Option Expr) (md : Build) (n : Nat) (w : BitVec 16) (isa : Isa) :
    call (crateWith g) md (n + 3) .c_extension_bit_16 .parse_opcode [.u16 w, emb isa] =
      outR (C.parse_opcode w isa) := by
  rw [call_with (fn := c_extension_bit_16_parse_opcode) (fn' := c_extension_bit_16_parse_opcode) rfl (by kernel_rfl)]
  simp only [c_extension_bit_16_parse_opcode, C.parse_opcode]
  fields
  rl [slice16_with]
  have h8 : fld w.toNat 15 13 < 8 := fld_lt w.toNat 15 13
  generalize fld w.toNat 15 13 = f15_13 at *
  generalize fld w.toNat 1 0 = f1_0
  have h0 := quadrant0_with g md n w f15_13 isa
  have h1 := quadrant1_with g md n w f15_13 isa h8
  have h2 := quadrant2_with g md n w f15_13 isa h8
  apply Eq.symm
  simp only [show (BitVec.ofNat 16 0).toNat = 0 from rfl]
  split
  · rfl
  · split <;> (try simp only [imp_false] at *) <;> (first | (walk [leave_outR]; done) | (walk []; rfl))

/-! ## Decoding -/

theorem extension32_with (g : Branch → Option Expr) (md : Build) (n : Nat) (args : List Val) :
    call (crateWith g) md n .u32 .parse_extension args = call crate md n .u32 .parse_extension args :=
  call_other g md n _ _ _ rfl

theorem extension16_with (g : Branch → Option Expr) (md : Build) (n : Nat) (args : List Val) :
    call (crateWith g) md n .u16 .parse_extension args = call crate md n .u16 .parse_extension args :=
  call_other g md n _ _ _ rfl

theorem rd_with (g : Branch → Option Expr) (md : Build) (n : Nat) (o : Id) (args : List Val) :
    call (crateWith g) md n o .parse_rd args = call crate md n o .parse_rd args := call_other g md n _ _ _ rfl

theorem rs1_with (g : Branch → Option Expr) (md : Build) (n : Nat) (o : Id) (args : List Val) :
    call (crateWith g) md n o .parse_rs1 args = call crate md n o .parse_rs1 args := call_other g md n _ _ _ rfl

theorem rs2_with (g : Branch → Option Expr) (md : Build) (n : Nat) (o : Id) (args : List Val) :
    call (crateWith g) md n o .parse_rs2 args = call crate md n o .parse_rs2 args := call_other g md n _ _ _ rfl

theorem imm_with (g : Branch → Option Expr) (md : Build) (n : Nat) (o : Id) (args : List Val) :
    call (crateWith g) md n o .parse_imm args = call crate md n o .parse_imm args := call_other g md n _ _ _ rfl

theorem format_with (g : Branch → Option Expr) (md : Build) (n : Nat) (o : Id) (args : List Val) :
    call (crateWith g) md n o .get_format args = call crate md n o .get_format args := call_other g md n _ _ _ rfl

theorem u32_opcode_with (g : Branch → Option Expr) (md : Build) (n : Nat) (w : BitVec 32) (isa : Isa) :
    call (crateWith g) md (n + 3) .u32 .parse_opcode [.u32 w, emb isa] = outR (U32.parse_opcode w isa) := by
  rw [call_u32_parse_opcode_with, U32.parse_opcode]
  simp only [u32_parse_opcode_with, run, bindParams, Option.map_some, coerce_u32_u32, coerce_other, eval, evalStmts,
    evalArgs, Env.get, reduceCtorEq, ite_true, ite_false, bind_val, typeOf_u32, extension32_with, u32_parse_extension_eq]
  have hx := ext32 w
  revert hx
  cases U32.parse_extension w with
  | panic => intro _; rfl
  | err e => intro _; cases e <;> rfl
  | ok e =>
    intro hx
    cases e
    · have h := bind_outR (BaseI.parse_opcode w isa) .BaseI OpcodeKind.BaseI (fun _ => rfl)
      rw [← base_i_with g md n w isa hx] at h
      generalize call (crateWith g) md (n + 2) = c at h ⊢
      exact h
    · have h := bind_outR (M.parse_opcode w isa) .M OpcodeKind.M (fun _ => rfl)
      rw [← m_with g md n w isa hx] at h
      generalize call (crateWith g) md (n + 2) = c at h ⊢
      exact h
    · have h := bind_outR (A.parse_opcode w isa) .A OpcodeKind.A (fun _ => rfl)
      rw [← a_with g md n w isa hx] at h
      generalize call (crateWith g) md (n + 2) = c at h ⊢
      exact h
    · exact hx.elim
    · have h := bind_outR (Zifencei.parse_opcode w) .Zifencei OpcodeKind.Zifencei (fun _ => rfl)
      rw [← zifencei_with g md n w hx] at h
      generalize call (crateWith g) md (n + 2) = c at h ⊢
      exact h
    · have h := bind_outR (Zicboz.parse_opcode w) .Zicboz OpcodeKind.Zicboz (fun _ => rfl)
      rw [← zicboz_with g md n w hx] at h
      generalize call (crateWith g) md (n + 2) = c at h ⊢
      exact h
    · have h := bind_outR (Zicsr.parse_opcode w) .Zicsr OpcodeKind.Zicsr (fun _ => rfl)
      rw [← zicsr_with g md n w hx] at h
      generalize call (crateWith g) md (n + 2) = c at h ⊢
      exact h
    · have h := bind_outR (Zicfiss.parse_opcode w) .Zicfiss OpcodeKind.Zicfiss (fun _ => rfl)
      rw [← zicfiss_with g md n w hx] at h
      generalize call (crateWith g) md (n + 2) = c at h ⊢
      exact h
    · have h := bind_outR (Zicntr.parse_opcode w) .Zicntr OpcodeKind.Zicntr (fun _ => rfl)
      rw [← zicntr_with g md n w hx] at h
      generalize call (crateWith g) md (n + 2) = c at h ⊢
      exact h
    · have h := bind_outR (Priv.parse_opcode w) .Priv OpcodeKind.Priv (fun _ => rfl)
      rw [← priv_with g md n w] at h
      generalize call (crateWith g) md (n + 2) = c at h ⊢
      exact h

theorem u16_opcode_with (g : Branch → Option Expr) (md : Build) (n : Nat) (w : BitVec 16) (isa : Isa) :
    call (crateWith g) md (n + 4) .u16 .parse_opcode [.u16 w, emb isa] = outR (U16.parse_opcode w isa) := by
  rw [call_u16_parse_opcode_with, U16.parse_opcode]
  simp only [u16_parse_opcode_with, run, bindParams, Option.map_some, coerce_u16_u16, coerce_other, eval, evalStmts,
    evalArgs, Env.get, reduceCtorEq, ite_true, ite_false, bind_val, typeOf_u16, extension16_with, u16_parse_extension_eq]
  have hx : U16.parse_extension w = .ok .Zicfiss ∨ U16.parse_extension w = .ok .C := by
    unfold U16.parse_extension
    split <;> simp
  rcases hx with hx | hx
  · have h := bind_outR (Zicfiss16.parse_opcode w isa) .Zicfiss OpcodeKind.Zicfiss (fun _ => rfl)
    rw [← zicfiss16_with g md (n + 1) w isa hx] at h
    rw [hx]
    generalize call (crateWith g) md (n + 3) = c at h ⊢
    exact h
  · have h := bind_outR (C.parse_opcode w isa) .C OpcodeKind.C (fun _ => rfl)
    rw [← c_with g md n w isa] at h
    rw [hx]
    generalize call (crateWith g) md (n + 3) = c at h ⊢
    exact h

theorem u32_decode_with (g : Branch → Option Expr) (md : Build) (n : Nat) (w : BitVec 32) (isa : Isa) :
    call (crateWith g) md (n + 4) .u32 .decode [.u32 w, emb isa] = outR (U32.decode w isa) := by
  rw [call_with (fn := u32_decode) (fn' := u32_decode) rfl (by kernel_rfl), U32.decode]
  simp only [u32_decode, run, bindParams, Option.map_some, coerce_u32_u32, coerce_other]
  simp only [eval, evalStmts, evalArgs, Env.get, reduceCtorEq, ite_true, ite_false, bind_val, typeOf_u32,
    u32_opcode_with, question_outR]
  cases U32.parse_opcode w isa with
  | err e => decode_step []
  | panic => rfl
  | ok op =>
    decode_step [rd_with, u32_parse_rd_eq]
    cases U32.parse_rd w op with
    | err e => decode_step []
    | panic => rfl
    | ok rd =>
      decode_step [rs1_with, u32_parse_rs1_eq]
      cases U32.parse_rs1 w op with
      | err e => decode_step []
      | panic => rfl
      | ok rs1 =>
        decode_step [rs2_with, u32_parse_rs2_eq]
        cases U32.parse_rs2 w op with
        | err e => decode_step []
        | panic => rfl
        | ok rs2 =>
          decode_step [imm_with, u32_parse_imm_eq]
          cases U32.parse_imm w op isa with
          | err e => decode_step []
          | panic => rfl
          | ok imm => decode_step [format_with]; rfl

theorem u16_decode_with (g : Branch → Option Expr) (md : Build) (n : Nat) (w : BitVec 16) (isa : Isa) :
    call (crateWith g) md (n + 5) .u16 .decode [.u16 w, emb isa] = outR (U16.decode w isa) := by
  rw [call_with (fn := u16_decode) (fn' := u16_decode) rfl (by kernel_rfl), U16.decode]
  simp only [u16_decode, run, bindParams, Option.map_some, coerce_u16_u16, coerce_other]
  simp only [eval, evalStmts, eq_u16_lit, cond_decide, bind_ite, bind_ret, leave_ite, leave_ret, coerce_err, evalArgs, Env.get, reduceCtorEq, ite_true, ite_false, bind_val, typeOf_u16,
    u16_opcode_with, question_outR]
  simp only [show (BitVec.ofNat 16 0).toNat = 0 from rfl]
  split
  · rfl
  cases U16.parse_opcode w isa with
  | err e => decode_step []
  | panic => rfl
  | ok op =>
    decode_step [rd_with, u16_parse_rd_eq md (n + 1)]
    cases U16.parse_rd w op with
    | err e => decode_step []
    | panic => rfl
    | ok rd =>
      decode_step [rs1_with, u16_parse_rs1_eq md (n + 1)]
      cases U16.parse_rs1 w op with
      | err e => decode_step []
      | panic => rfl
      | ok rs1 =>
        decode_step [rs2_with, u16_parse_rs2_eq md (n + 1)]
        cases U16.parse_rs2 w op with
        | err e => decode_step []
        | panic => rfl
        | ok rs2 =>
          decode_step [imm_with, u16_parse_imm_eq md (n + 1)]
          cases U16.parse_imm w op isa with
          | err e => decode_step []
          | panic => rfl
          | ok imm => decode_step [format_with]; rfl


theorem Instruction_try_from_with (g : Branch → Option Expr) (md : Build) (n : Nat) (x : Nat) :
    call (crateWith g) md (n + 6) .Instruction .try_from [.usize x] = outR (try_from x) := by
  rw [call_with (fn := Instruction_try_from) (fn' := Instruction_try_from) rfl (by kernel_rfl), try_from]
  simp only [Instruction_try_from, run, bindParams, Option.map_some, coerce_usize_usize, coerce_other]
  simp only [eval, evalArgs, Env.get, ite_true, bind_val, and_usize_lit, eq_usize_lit, cond_decide, leave_ite,
    try_u32_usize, try_u16_usize, tryU32, tryU16]
  split
  · simp only [inRange]
    split
    · simp only [unwrap_Ok, bind_val, typeOf_u32, RustM.bind_ok, ← emb_rv64, u32_decode_with g md (n + 1), leave_outR]
    · rfl
  · simp only [inRange]
    split
    · simp only [unwrap_Ok, bind_val, typeOf_u16, RustM.bind_ok, ← emb_rv64, u16_decode_with, leave_outR]
    · rfl

/-- Whatever code is put in dead branches, public calls run as before. -/
theorem run_with (g : Branch → Option Expr) (md : Build) (n : Nat) (pc : PublicCall) :
    pc.run (crateWith g) md (n + 6) = pc.run crate md (n + 6) := by
  cases pc with
  | decode32 w isa => exact (u32_decode_with g md (n + 2) w isa).trans (u32_decode_eq md (n + 2) w isa).symm
  | decode16 h isa => exact (u16_decode_with g md (n + 1) h isa).trans (u16_decode_eq md (n + 1) h isa).symm
  | parseOpcode32 w isa => exact (u32_opcode_with g md (n + 3) w isa).trans (u32_parse_opcode_eq md (n + 3) w isa).symm
  | parseOpcode16 h isa => exact (u16_opcode_with g md (n + 2) h isa).trans (u16_parse_opcode_eq md (n + 2) h isa).symm
  | tryFrom x => exact (Instruction_try_from_with g md n x).trans (Instruction_try_from_eq md n x).symm
  | parseRd32 | parseRd16 | parseRs1_32 | parseRs1_16 | parseRs2_32 | parseRs2_16 | parseImm32 | parseImm16
  | showInstruction | showOpcode | showName | getFormat => exact call_other g md _ _ _ _ rfl

end Raki.Source
