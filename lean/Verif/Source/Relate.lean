import Verif.Source.Embed
import Verif.Source.Lookup
import Verif.Lemmas.Scatter
import Verif.Release.Rust
/-!
# Relating runs of the source to the model

`outV` and `outR` say which outcome of the source corresponds to an outcome of the model.
-/

namespace Raki.Source

instance : Emb Nat := ⟨.usize⟩
instance : Emb Int := ⟨.i32⟩
instance : Emb (BitVec 16) := ⟨.u16⟩
instance : Emb (BitVec 32) := ⟨.u32⟩
instance : Emb String := ⟨.str⟩

instance {α : Type} [Emb α] : Emb (Option α) where
  emb
    | some a => .variantOf .Option .Some (emb a)
    | none => .variant .Option .None

instance : Emb Bool := ⟨.bool⟩

instance : Emb Instruction where
  emb i := .struct .Instruction [(.opc, emb i.opc), (.rd, emb i.rd), (.rs1, emb i.rs1), (.rs2, emb i.rs2),
    (.imm, emb i.imm), (.inst_format, emb i.instFormat), (.is_compressed, emb i.isCompressed)]

/-- Outcome of a function that does not return a `Result`. -/
def outV {α : Type} [Emb α] : RustM α → Out Val
  | .ok a => .val (emb a)
  | .err _ => .stuck
  | .panic => .panic

/-- Outcome of a function that returns a `Result`. -/
def outR {α : Type} [Emb α] : RustM α → Out Val
  | .ok a => .val (.variantOf .Result .Ok (emb a))
  | .err e => .val (.variantOf .Result .Err (emb e))
  | .panic => .panic

/-! ## One step of evaluation -/

theorem coerce_other (v : Val) : coerce .other v = v := by cases v <;> rfl
theorem coerce_u8_u8 (x : Nat) : coerce .u8 (.u8 x) = .u8 x := rfl
theorem coerce_u8_lit (n : Nat) : coerce .u8 (.lit n) = .u8 (n) := rfl
theorem coerce_u16_u16 (x : BitVec 16) : coerce .u16 (.u16 x) = .u16 x := rfl
theorem coerce_u16_lit (n : Nat) : coerce .u16 (.lit n) = .u16 (BitVec.ofNat 16 n) := rfl
theorem coerce_u32_u32 (x : BitVec 32) : coerce .u32 (.u32 x) = .u32 x := rfl
theorem coerce_u32_lit (n : Nat) : coerce .u32 (.lit n) = .u32 (BitVec.ofNat 32 n) := rfl
theorem coerce_usize_usize (x : Nat) : coerce .usize (.usize x) = .usize x := rfl
theorem coerce_usize_lit (n : Nat) : coerce .usize (.lit n) = .usize (n) := rfl
theorem coerce_i32_i32 (x : Int) : coerce .i32 (.i32 x) = .i32 x := rfl
theorem coerce_i32_lit (n : Nat) : coerce .i32 (.lit n) = .i32 (n) := rfl
theorem coerce_some (t : Ty) (v : Val) :
    coerce (.option t) (.variantOf .Option .Some v) = .variantOf .Option .Some (coerce t v) := rfl
theorem coerce_none (t : Ty) : coerce (.option t) (.variant .Option .None) = .variant .Option .None := rfl
theorem coerce_ok (t : Ty) (v : Val) :
    coerce (.result t) (.variantOf .Result .Ok v) = .variantOf .Result .Ok (coerce t v) := rfl
theorem coerce_err (t : Ty) (v : Val) :
    coerce (.result t) (.variantOf .Result .Err v) = .variantOf .Result .Err v := rfl
theorem coerce_array (t : Ty) (vs : List Val) :
    coerce (.array t) (.array vs) = .array (vs.map (coerce t)) := rfl
theorem leave_val (t : Ty) (v : Val) : leave t (.val v) = .val (coerce t v) := rfl
theorem leave_ret (t : Ty) (v : Val) : leave t (.ret v) = .val (coerce t v) := rfl
theorem leave_panic (t : Ty) : leave t .panic = .panic := rfl
theorem leave_stuck (t : Ty) : leave t .stuck = .stuck := rfl
theorem leave_ite (t : Ty) (c : Prop) [Decidable c] (a b : Out Val) :
    leave t (if c then a else b) = if c then leave t a else leave t b := by split <;> rfl
theorem add_u16_checked (x y : BitVec 16) :
    binOp .checked .add (.u16 x) (.u16 y) = .ofRust .u16 (addU x y) := rfl
theorem add_u16_lit_checked (x : BitVec 16) (n : Nat) :
    binOp .checked .add (.u16 x) (.lit n) = .ofRust .u16 (addU x (BitVec.ofNat 16 n)) := rfl
theorem add_u32_checked (x y : BitVec 32) :
    binOp .checked .add (.u32 x) (.u32 y) = .ofRust .u32 (addU x y) := rfl
theorem add_u32_lit_checked (x : BitVec 32) (n : Nat) :
    binOp .checked .add (.u32 x) (.lit n) = .ofRust .u32 (addU x (BitVec.ofNat 32 n)) := rfl
theorem sub_u16_checked (x y : BitVec 16) :
    binOp .checked .sub (.u16 x) (.u16 y) = .ofRust .u16 (subU x y) := rfl
theorem sub_u16_lit_checked (x : BitVec 16) (n : Nat) :
    binOp .checked .sub (.u16 x) (.lit n) = .ofRust .u16 (subU x (BitVec.ofNat 16 n)) := rfl
theorem sub_u32_checked (x y : BitVec 32) :
    binOp .checked .sub (.u32 x) (.u32 y) = .ofRust .u32 (subU x y) := rfl
theorem sub_u32_lit_checked (x : BitVec 32) (n : Nat) :
    binOp .checked .sub (.u32 x) (.lit n) = .ofRust .u32 (subU x (BitVec.ofNat 32 n)) := rfl
theorem sub_i32_checked (x y : Int) :
    binOp .checked .sub (.i32 x) (.i32 y) = .ofRust .i32 (chkI32 (x - y)) := rfl
theorem sub_i32_lit_checked (x : Int) (n : Nat) :
    binOp .checked .sub (.i32 x) (.lit n) = .ofRust .i32 (chkI32 (x - n)) := rfl
theorem shl_u16_usize_checked (x : BitVec 16) (k : Nat) :
    binOp .checked .shl (.u16 x) (.usize k) = .ofRust .u16 (shlU x k) := rfl
theorem shl_u16_lit_checked (x : BitVec 16) (k : Nat) :
    binOp .checked .shl (.u16 x) (.lit k) = .ofRust .u16 (shlU x k) := rfl
theorem shl_u16_u32_checked (x : BitVec 16) (k : BitVec 32) :
    binOp .checked .shl (.u16 x) (.u32 k) = .ofRust .u16 (shlU x k.toNat) := rfl
theorem shl_u32_usize_checked (x : BitVec 32) (k : Nat) :
    binOp .checked .shl (.u32 x) (.usize k) = .ofRust .u32 (shlU x k) := rfl
theorem shl_u32_lit_checked (x : BitVec 32) (k : Nat) :
    binOp .checked .shl (.u32 x) (.lit k) = .ofRust .u32 (shlU x k) := rfl
theorem shl_u32_u32_checked (x : BitVec 32) (k : BitVec 32) :
    binOp .checked .shl (.u32 x) (.u32 k) = .ofRust .u32 (shlU x k.toNat) := rfl
theorem shr_u16_usize_checked (x : BitVec 16) (k : Nat) :
    binOp .checked .shr (.u16 x) (.usize k) = .ofRust .u16 (shrU x k) := rfl
theorem shr_u16_lit_checked (x : BitVec 16) (k : Nat) :
    binOp .checked .shr (.u16 x) (.lit k) = .ofRust .u16 (shrU x k) := rfl
theorem shr_u16_u32_checked (x : BitVec 16) (k : BitVec 32) :
    binOp .checked .shr (.u16 x) (.u32 k) = .ofRust .u16 (shrU x k.toNat) := rfl
theorem shr_u32_usize_checked (x : BitVec 32) (k : Nat) :
    binOp .checked .shr (.u32 x) (.usize k) = .ofRust .u32 (shrU x k) := rfl
theorem shr_u32_lit_checked (x : BitVec 32) (k : Nat) :
    binOp .checked .shr (.u32 x) (.lit k) = .ofRust .u32 (shrU x k) := rfl
theorem shr_u32_u32_checked (x : BitVec 32) (k : BitVec 32) :
    binOp .checked .shr (.u32 x) (.u32 k) = .ofRust .u32 (shrU x k.toNat) := rfl
theorem shr_i32_lit_checked (x : Int) (k : Nat) :
    binOp .checked .shr (.i32 x) (.lit k) = .ofRust .i32 (sarI32 x k) := rfl
theorem shr_i32_u32_checked (x : Int) (k : BitVec 32) :
    binOp .checked .shr (.i32 x) (.u32 k) = .ofRust .i32 (sarI32 x k.toNat) := rfl
theorem pow_u16_checked (x : BitVec 16) (k : BitVec 32) :
    power .checked (.u16 x) (.u32 k) = .ofRust .u16 (powU 16 x.toNat k.toNat) := rfl
theorem pow_u32_checked (x : BitVec 32) (k : BitVec 32) :
    power .checked (.u32 x) (.u32 k) = .ofRust .u32 (powU 32 x.toNat k.toNat) := rfl
theorem pow_i32_checked (x : Int) (k : BitVec 32) :
    power .checked (.i32 x) (.u32 k) = .ofRust .i32 (chkI32 (x ^ k.toNat)) := rfl
theorem add_u16_wrapping (x y : BitVec 16) :
    binOp .wrapping .add (.u16 x) (.u16 y) = .ofRust .u16 (Release.addU x y) := rfl
theorem add_u16_lit_wrapping (x : BitVec 16) (n : Nat) :
    binOp .wrapping .add (.u16 x) (.lit n) = .ofRust .u16 (Release.addU x (BitVec.ofNat 16 n)) := rfl
theorem add_u32_wrapping (x y : BitVec 32) :
    binOp .wrapping .add (.u32 x) (.u32 y) = .ofRust .u32 (Release.addU x y) := rfl
theorem add_u32_lit_wrapping (x : BitVec 32) (n : Nat) :
    binOp .wrapping .add (.u32 x) (.lit n) = .ofRust .u32 (Release.addU x (BitVec.ofNat 32 n)) := rfl
theorem sub_u16_wrapping (x y : BitVec 16) :
    binOp .wrapping .sub (.u16 x) (.u16 y) = .ofRust .u16 (Release.subU x y) := rfl
theorem sub_u16_lit_wrapping (x : BitVec 16) (n : Nat) :
    binOp .wrapping .sub (.u16 x) (.lit n) = .ofRust .u16 (Release.subU x (BitVec.ofNat 16 n)) := rfl
theorem sub_u32_wrapping (x y : BitVec 32) :
    binOp .wrapping .sub (.u32 x) (.u32 y) = .ofRust .u32 (Release.subU x y) := rfl
theorem sub_u32_lit_wrapping (x : BitVec 32) (n : Nat) :
    binOp .wrapping .sub (.u32 x) (.lit n) = .ofRust .u32 (Release.subU x (BitVec.ofNat 32 n)) := rfl
theorem sub_i32_wrapping (x y : Int) :
    binOp .wrapping .sub (.i32 x) (.i32 y) = .ofRust .i32 (Release.chkI32 (x - y)) := rfl
theorem sub_i32_lit_wrapping (x : Int) (n : Nat) :
    binOp .wrapping .sub (.i32 x) (.lit n) = .ofRust .i32 (Release.chkI32 (x - n)) := rfl
theorem shl_u16_usize_wrapping (x : BitVec 16) (k : Nat) :
    binOp .wrapping .shl (.u16 x) (.usize k) = .ofRust .u16 (Release.shlU x k) := rfl
theorem shl_u16_lit_wrapping (x : BitVec 16) (k : Nat) :
    binOp .wrapping .shl (.u16 x) (.lit k) = .ofRust .u16 (Release.shlU x k) := rfl
theorem shl_u16_u32_wrapping (x : BitVec 16) (k : BitVec 32) :
    binOp .wrapping .shl (.u16 x) (.u32 k) = .ofRust .u16 (Release.shlU x k.toNat) := rfl
theorem shl_u32_usize_wrapping (x : BitVec 32) (k : Nat) :
    binOp .wrapping .shl (.u32 x) (.usize k) = .ofRust .u32 (Release.shlU x k) := rfl
theorem shl_u32_lit_wrapping (x : BitVec 32) (k : Nat) :
    binOp .wrapping .shl (.u32 x) (.lit k) = .ofRust .u32 (Release.shlU x k) := rfl
theorem shl_u32_u32_wrapping (x : BitVec 32) (k : BitVec 32) :
    binOp .wrapping .shl (.u32 x) (.u32 k) = .ofRust .u32 (Release.shlU x k.toNat) := rfl
theorem shr_u16_usize_wrapping (x : BitVec 16) (k : Nat) :
    binOp .wrapping .shr (.u16 x) (.usize k) = .ofRust .u16 (Release.shrU x k) := rfl
theorem shr_u16_lit_wrapping (x : BitVec 16) (k : Nat) :
    binOp .wrapping .shr (.u16 x) (.lit k) = .ofRust .u16 (Release.shrU x k) := rfl
theorem shr_u16_u32_wrapping (x : BitVec 16) (k : BitVec 32) :
    binOp .wrapping .shr (.u16 x) (.u32 k) = .ofRust .u16 (Release.shrU x k.toNat) := rfl
theorem shr_u32_usize_wrapping (x : BitVec 32) (k : Nat) :
    binOp .wrapping .shr (.u32 x) (.usize k) = .ofRust .u32 (Release.shrU x k) := rfl
theorem shr_u32_lit_wrapping (x : BitVec 32) (k : Nat) :
    binOp .wrapping .shr (.u32 x) (.lit k) = .ofRust .u32 (Release.shrU x k) := rfl
theorem shr_u32_u32_wrapping (x : BitVec 32) (k : BitVec 32) :
    binOp .wrapping .shr (.u32 x) (.u32 k) = .ofRust .u32 (Release.shrU x k.toNat) := rfl
theorem shr_i32_lit_wrapping (x : Int) (k : Nat) :
    binOp .wrapping .shr (.i32 x) (.lit k) = .ofRust .i32 (Release.sarI32 x k) := rfl
theorem shr_i32_u32_wrapping (x : Int) (k : BitVec 32) :
    binOp .wrapping .shr (.i32 x) (.u32 k) = .ofRust .i32 (Release.sarI32 x k.toNat) := rfl
theorem pow_u16_wrapping (x : BitVec 16) (k : BitVec 32) :
    power .wrapping (.u16 x) (.u32 k) = .ofRust .u16 (Release.powU 16 x.toNat k.toNat) := rfl
theorem pow_u32_wrapping (x : BitVec 32) (k : BitVec 32) :
    power .wrapping (.u32 x) (.u32 k) = .ofRust .u32 (Release.powU 32 x.toNat k.toNat) := rfl
theorem pow_i32_wrapping (x : Int) (k : BitVec 32) :
    power .wrapping (.i32 x) (.u32 k) = .ofRust .i32 (Release.chkI32 (x ^ k.toNat)) := rfl
theorem and_u16 (md : Mode) (x y : BitVec 16) : binOp md .and (.u16 x) (.u16 y) = .val (.u16 (x &&& y)) := rfl
theorem and_u16_lit (md : Mode) (x : BitVec 16) (n : Nat) :
    binOp md .and (.u16 x) (.lit n) = .val (.u16 (x &&& BitVec.ofNat 16 n)) := rfl
theorem eq_u16_lit (md : Mode) (x : BitVec 16) (n : Nat) :
    binOp md .eq (.u16 x) (.lit n) = .val (.bool (decide (x.toNat = (BitVec.ofNat 16 n).toNat))) := rfl
theorem and_u32 (md : Mode) (x y : BitVec 32) : binOp md .and (.u32 x) (.u32 y) = .val (.u32 (x &&& y)) := rfl
theorem and_u32_lit (md : Mode) (x : BitVec 32) (n : Nat) :
    binOp md .and (.u32 x) (.lit n) = .val (.u32 (x &&& BitVec.ofNat 32 n)) := rfl
theorem eq_u32_lit (md : Mode) (x : BitVec 32) (n : Nat) :
    binOp md .eq (.u32 x) (.lit n) = .val (.bool (decide (x.toNat = (BitVec.ofNat 32 n).toNat))) := rfl
theorem or_u32 (md : Mode) (x y : BitVec 32) : binOp md .or (.u32 x) (.u32 y) = .val (.u32 (x ||| y)) := rfl
theorem and_i32 (md : Mode) (x y : Int) : binOp md .and (.i32 x) (.i32 y) = .val (.i32 (andI32 x y)) := rfl
theorem and_i32_lit (md : Mode) (x : Int) (n : Nat) : binOp md .and (.i32 x) (.lit n) = .val (.i32 (andI32 x n)) := rfl
theorem and_usize_lit (md : Mode) (x n : Nat) : binOp md .and (.usize x) (.lit n) = .val (.usize (x &&& n)) := rfl
theorem eq_usize_lit (md : Mode) (x n : Nat) : binOp md .eq (.usize x) (.lit n) = .val (.bool (decide (x = n))) := rfl
theorem eq_i32_lit (md : Mode) (x : Int) (n : Nat) : binOp md .eq (.i32 x) (.lit n) = .val (.bool (decide (x = n))) := rfl
theorem ge_u32 (md : Mode) (x y : BitVec 32) :
    binOp md .ge (.u32 x) (.u32 y) = .val (.bool (decide (x.toNat ≥ y.toNat))) := rfl
theorem ofRust_ok {α : Type} (k : α → Val) (a : α) : Out.ofRust k (.ok a) = .val (k a) := rfl
theorem ofRust_err {α : Type} (k : α → Val) (e : DecodingError) : Out.ofRust k (.err e : RustM α) = .stuck := rfl
theorem ofRust_panic {α : Type} (k : α → Val) : Out.ofRust k .panic = .panic := rfl
theorem cast_u16_usize (p : PtrWidth) (x : BitVec 16) : castTo p (.u16 x) .usize = .val (.usize x.toNat) := rfl
theorem cast_u32_usize (p : PtrWidth) (x : BitVec 32) :
    castTo p (.u32 x) .usize = .val (.usize (x.toNat % 2 ^ p.bits)) := rfl
theorem cast_u32_i32 (p : PtrWidth) (x : BitVec 32) : castTo p (.u32 x) .i32 = .val (.i32 (asI32 x)) := rfl
theorem from_u16 (x : BitVec 16) : fromTo .u32 (.u16 x) = .val (.u32 (x.setWidth 32)) := rfl
theorem into_u8 (n : Nat) : intoTo (.u8 n) = .val (.usize n) := rfl
theorem unwrap_Some (v : Val) : unwrapVal (.variantOf .Option .Some v) = .val v := rfl
theorem unwrap_Ok (v : Val) : unwrapVal (.variantOf .Result .Ok v) = .val v := rfl
theorem unwrap_None : unwrapVal (.variant .Option .None) = .panic := rfl
theorem unwrap_Err (v : Val) : unwrapVal (.variantOf .Result .Err v) = .panic := rfl
theorem unwrap_ite (c : Prop) [Decidable c] (a b : Val) :
    unwrapVal (if c then a else b) = if c then unwrapVal a else unwrapVal b := by split <;> rfl
theorem question_ok (v : Val) : questionVal (.variantOf .Result .Ok v) = .val v := rfl
theorem question_err (v : Val) : questionVal (.variantOf .Result .Err v) = .ret (.variantOf .Result .Err v) := rfl
theorem try_u8_u16 (x : BitVec 16) : tryFromTo .u8 (.u16 x) = .val (inRange .u8 (2 ^ 8) x.toNat) := rfl
theorem try_u8_u32 (x : BitVec 32) : tryFromTo .u8 (.u32 x) = .val (inRange .u8 (2 ^ 8) x.toNat) := rfl
theorem try_u16_u32 (x : BitVec 32) : tryFromTo .u16 (.u32 x) = .val (inRange (fun n => .u16 (BitVec.ofNat 16 n)) (2 ^ 16) x.toNat) := rfl
theorem try_u16_usize (x : Nat) : tryFromTo .u16 (.usize x) = .val (inRange (fun n => .u16 (BitVec.ofNat 16 n)) (2 ^ 16) x) := rfl
theorem try_u32_usize (x : Nat) : tryFromTo .u32 (.usize x) = .val (inRange (fun n => .u32 (BitVec.ofNat 32 n)) (2 ^ 32) x) := rfl
theorem unsigned_u8 (x : Nat) : unsigned (.u8 x) = some (x) := rfl
theorem unsigned_u16 (x : BitVec 16) : unsigned (.u16 x) = some (x.toNat) := rfl
theorem unsigned_u32 (x : BitVec 32) : unsigned (.u32 x) = some (x.toNat) := rfl
theorem unsigned_usize (x : Nat) : unsigned (.usize x) = some (x) := rfl
theorem typeOf_u16 (x : BitVec 16) : typeOf (.u16 x) = some .u16 := rfl
theorem typeOf_u32 (x : BitVec 32) : typeOf (.u32 x) = some .u32 := rfl
theorem typeOf_variant (t c : Id) : typeOf (.variant t c) = some t := rfl
theorem typeOf_variantOf (t c : Id) (v : Val) : typeOf (.variantOf t c v) = some t := rfl
theorem typeOf_struct (t : Id) (fs : List (Id × Val)) : typeOf (.struct t fs) = some t := rfl
theorem match_wild (v : Val) {α : Type} (env : Env) (k : Env → Out α) (fail : Out α) : matchPat v env .wild k fail = k env := rfl
theorem match_var (v : Val) (x : Id) {α : Type} (env : Env) (k : Env → Out α) (fail : Out α) :
    matchPat v env (.var x) k fail = k ((x, .val v) :: env) := rfl
theorem match_lit (v : Val) (n m : Nat) (h : unsigned v = some m) {α : Type} (env : Env) (k : Env → Out α) (fail : Out α) :
    matchPat v env (.lit n) k fail = if m = n then k env else fail := by simp [matchPat, h]
theorem match_range (v : Val) (lo hi m : Nat) (h : unsigned v = some m) {α : Type} (env : Env) (k : Env → Out α) (fail : Out α) :
    matchPat v env (.range lo hi) k fail = if lo ≤ m ∧ m ≤ hi then k env else fail := by simp [matchPat, h]
theorem match_ctor (t c d : Id) {α : Type} (env : Env) (k : Env → Out α) (fail : Out α) :
    matchPat (.variant t d) env (.ctor t c) k fail = if c = d then k env else fail := by simp [matchPat]
theorem match_ctor1 (t c d : Id) (v : Val) (p : Pat) {α : Type} (env : Env) (k : Env → Out α) (fail : Out α) :
    matchPat (.variantOf t d v) env (.ctor1 t c p) k fail = if c = d then matchPat v env p k fail else fail := by simp [matchPat]
theorem match_ctor1_none (t c d : Id) (p : Pat) {α : Type} (env : Env) (k : Env → Out α) (fail : Out α) :
    matchPat (.variant t d) env (.ctor1 t c p) k fail = fail := by simp [matchPat]
theorem match_or (v : Val) (p q : Pat) {α : Type} (env : Env) (k : Env → Out α) (fail : Out α) :
    matchPat v env (.or p q) k fail = matchPat v env p k (matchPat v env q k fail) := rfl
theorem bind_val {α β : Type} (a : α) (f : α → Out β) : (Out.val a >>= f) = f a := rfl
theorem bind_ret {α β : Type} (v : Val) (f : α → Out β) : ((Out.ret v : Out α) >>= f) = Out.ret v := rfl
theorem bind_panic {α β : Type} (f : α → Out β) : ((Out.panic : Out α) >>= f) = Out.panic := rfl
theorem bind_stuck {α β : Type} (f : α → Out β) : ((Out.stuck : Out α) >>= f) = Out.stuck := rfl
theorem bind_ite {α β : Type} (c : Prop) [Decidable c] (a b : Out α) (f : α → Out β) :
    ((if c then a else b) >>= f) = if c then a >>= f else b >>= f := by split <;> rfl
theorem cond_decide {α : Type} (c : Prop) [Decidable c] (a b : Out α) :
    cond (.bool (decide c)) a b = if c then a else b := by by_cases h : c <;> simp [h, cond]
theorem run_eq (md : Build) (callf : Id → Id → List Val → Out Val) (fn : Fn) (args : List Val) (env : Env)
    (h : bindParams fn.params args = some env) :
    run md callf fn args = leave fn.ret (eval md callf env fn.body) := by simp [run, h]

/-- Evaluate the source symbolically, using the given facts about the functions it calls. -/
macro "run_source" "[" ls:Lean.Parser.Tactic.simpLemma,* "]" : tactic =>
  `(tactic| simp -implicitDefEqProofs only [run, bindParams, Option.map_some, List.map_cons, List.map_nil, eval, evalArgs,
      evalArms, evalFields, evalStmts, Env.get, getField, reduceCtorEq, ite_true, ite_false,
      coerce_other, coerce_u8_u8, coerce_u8_lit, coerce_u16_u16, coerce_u16_lit, coerce_u32_u32,
      coerce_u32_lit, coerce_usize_usize, coerce_usize_lit, coerce_i32_i32, coerce_i32_lit, coerce_some,
      coerce_none, coerce_ok, coerce_err, coerce_array, leave_val, leave_ret, leave_panic, leave_ite,
      add_u16_checked, add_u16_lit_checked, add_u32_checked, add_u32_lit_checked, sub_u16_checked,
      sub_u16_lit_checked, sub_u32_checked, sub_u32_lit_checked, sub_i32_checked, sub_i32_lit_checked,
      shl_u16_usize_checked, shl_u16_lit_checked, shl_u16_u32_checked, shl_u32_usize_checked,
      shl_u32_lit_checked, shl_u32_u32_checked, shr_u16_usize_checked, shr_u16_lit_checked,
      shr_u16_u32_checked, shr_u32_usize_checked, shr_u32_lit_checked, shr_u32_u32_checked,
      shr_i32_lit_checked, shr_i32_u32_checked, pow_u16_checked, pow_u32_checked, pow_i32_checked,
      add_u16_wrapping, add_u16_lit_wrapping, add_u32_wrapping, add_u32_lit_wrapping, sub_u16_wrapping,
      sub_u16_lit_wrapping, sub_u32_wrapping, sub_u32_lit_wrapping, sub_i32_wrapping,
      sub_i32_lit_wrapping, shl_u16_usize_wrapping, shl_u16_lit_wrapping, shl_u16_u32_wrapping,
      shl_u32_usize_wrapping, shl_u32_lit_wrapping, shl_u32_u32_wrapping, shr_u16_usize_wrapping,
      shr_u16_lit_wrapping, shr_u16_u32_wrapping, shr_u32_usize_wrapping, shr_u32_lit_wrapping,
      shr_u32_u32_wrapping, shr_i32_lit_wrapping, shr_i32_u32_wrapping, pow_u16_wrapping,
      pow_u32_wrapping, pow_i32_wrapping, and_u16, and_u16_lit, eq_u16_lit, and_u32, and_u32_lit,
      eq_u32_lit, or_u32, and_i32, and_i32_lit, and_usize_lit, eq_usize_lit, eq_i32_lit, ge_u32,
      ofRust_ok, ofRust_panic, ofRust_err, bind_stuck, leave_stuck, cast_u16_usize, cast_u32_usize, cast_u32_i32, from_u16, into_u8,
      unwrap_Some, unwrap_Ok, unwrap_None, unwrap_Err, unwrap_ite, question_ok, question_err, try_u8_u16,
      try_u8_u32, try_u16_u32, try_u16_usize, try_u32_usize, unsigned_u8, unsigned_u16, unsigned_u32,
      unsigned_usize, typeOf_u16, typeOf_u32, typeOf_variant, typeOf_variantOf, typeOf_struct, match_wild,
      match_var, match_lit, match_range, match_ctor, match_ctor1, match_ctor1_none, match_or, bind_val,
      bind_ret, bind_panic, bind_ite, cond_decide,
      $ls,*])

end Raki.Source
