import Verif.Source.Work
import Verif.Source.StepsMono
import Verif.Props.Source
/-!
# How much work it is

`callSteps` counts what running the source text takes: one for every expression, statement and part of a format string
that is evaluated, one for every part of the patterns that are met, one for every round of a loop and one for every
call.  The bounds hold in every build and on every target.
-/

namespace Raki

open Source

theorem outR_not_stuck {α : Type} [Emb α] (x : RustM α) : outR x ≠ .stuck := by cases x <;> nofun

theorem small_option {n : Nat} {α : Type} [Emb α] (h : ∀ a : α, Small n (emb a)) (x : Option α) : Small n (emb x) := by
  cases x with
  | none => exact .variant _ _
  | some a => exact .variantOf _ _ (h a)

theorem small_opcode (n : Nat) (op : OpcodeKind) : Small n (emb op) := by
  cases op <;> rename_i o <;> exact .variantOf _ _ (by cases o <;> exact .variant _ _)

theorem small_isa (n : Nat) (isa : Isa) : Small n (emb isa) := by cases isa <;> exact .variant _ _

theorem small_instruction (n : Nat) (i : Instruction) : Small n (emb i) := by
  refine .struct _ fun x v h => ?_
  simp only [List.mem_cons, List.not_mem_nil, or_false, Prod.mk.injEq] at h
  rcases h with h | h | h | h | h | h | h <;> rw [h.2]
  · exact small_opcode n _
  · exact small_option (fun a => .usize a) _
  · exact small_option (fun a => .usize a) _
  · exact small_option (fun a => .usize a) _
  · exact small_option (fun a => .i32 a) _
  · cases i.instFormat <;> exact .variant _ _
  · exact .bool _

/-- A call that is not stuck when calls nest `n` deep takes no more steps than the table says, however deep calls may
nest. -/
theorem work_le (md : Build) {n d : Nat} (hn : n ≤ 6) (h : n ≤ d) {o f : Id} {args : List Val}
    (hs : call crate md n o f args ≠ .stuck) (ha : ∀ v ∈ args, Small 20 v) {k : Nat}
    (hk : (costs (workAt n)).fn o f = k) : callSteps crate md d o f args ≤ k := by
  rw [← callSteps_eq (Sub.refl crate) md h o f args hs, ← hk]
  exact (work_holds md n hn o f).2 args ha

/-! ## C84: the work is bounded -/

/-- C84.  Decoding a `u32`, whatever it is, takes at most 1388 steps. -/
theorem C84_decode32 (md : Build) (d : Nat) (h : 4 ≤ d) (w : BitVec 32) (isa : Isa) :
    callSteps crate md d .u32 .decode [emb w, emb isa] ≤ 1388 := by
  refine work_le md (by decide) h (by rw [C60_decode32 md 4 (Nat.le_refl _)]; exact outR_not_stuck _) ?_ (by kernel_rfl)
  simpa using ⟨.u32 w, small_isa 20 isa⟩

/-- C84.  Decoding a `u16` takes at most 1469 steps. -/
theorem C84_decode16 (md : Build) (d : Nat) (h : 5 ≤ d) (w : BitVec 16) (isa : Isa) :
    callSteps crate md d .u16 .decode [emb w, emb isa] ≤ 1469 := by
  refine work_le md (by decide) h (by rw [C60_decode16 md 5 (Nat.le_refl _)]; exact outR_not_stuck _) ?_ (by kernel_rfl)
  simpa using ⟨.u16 w, small_isa 20 isa⟩

/-- C84.  The conversion from `usize` takes at most 1481 steps, however large the number. -/
theorem C84_try_from (md : Build) (d : Nat) (h : 6 ≤ d) (x : Nat) :
    callSteps crate md d .Instruction .try_from [emb x] ≤ 1481 := by
  refine work_le md (by decide) h (by rw [C60_try_from md 6 (Nat.le_refl _)]; exact outR_not_stuck _) ?_ (by kernel_rfl)
  simpa using .usize x

/-- C84.  Showing an instruction, decoded or not, takes at most 1721 steps. -/
theorem C84_display (md : Build) (d : Nat) (h : 3 ≤ d) (i : Instruction) :
    callSteps crate md d .Instruction .fmt [emb i] ≤ 1721 := by
  refine work_le md (by decide) h (fun hs => ?_) ?_ (by kernel_rfl)
  · have := C60_display_to (fun s _ => (s, true)) () md 3 (Nat.le_refl _) i
    rw [hs] at this
    cases this
  · simpa using small_instruction 20 i

/-- C84.  The parsers of a `u32`. -/
theorem C84_parsers32 (md : Build) (d : Nat) (h : 3 ≤ d) (w : BitVec 32) (op : OpcodeKind) (isa : Isa) :
    callSteps crate md d .u32 .parse_opcode [emb w, emb isa] ≤ 333 ∧
    callSteps crate md d .u32 .parse_rd [emb w, emb op] ≤ 79 ∧
    callSteps crate md d .u32 .parse_rs1 [emb w, emb op] ≤ 86 ∧
    callSteps crate md d .u32 .parse_rs2 [emb w, emb op] ≤ 65 ∧
    callSteps crate md d .u32 .parse_imm [emb w, emb op, emb isa] ≤ 520 := by
  obtain ⟨h1, h2, h3, h4, h5⟩ := C60_parsers32 md 3 (Nat.le_refl _) w op isa
  refine ⟨work_le md (by decide) h (by rw [h1]; exact outR_not_stuck _) ?_ (by kernel_rfl),
    work_le md (by decide) h (by rw [h2]; exact outR_not_stuck _) ?_ (by kernel_rfl),
    work_le md (by decide) h (by rw [h3]; exact outR_not_stuck _) ?_ (by kernel_rfl),
    work_le md (by decide) h (by rw [h4]; exact outR_not_stuck _) ?_ (by kernel_rfl),
    work_le md (by decide) h (by rw [h5]; exact outR_not_stuck _) ?_ (by kernel_rfl)⟩
  · simpa using ⟨.u32 w, small_isa 20 isa⟩
  · simpa using ⟨.u32 w, small_opcode 20 op⟩
  · simpa using ⟨.u32 w, small_opcode 20 op⟩
  · simpa using ⟨.u32 w, small_opcode 20 op⟩
  · simpa using ⟨.u32 w, small_opcode 20 op, small_isa 20 isa⟩

/-- C84.  The parsers of a `u16`. -/
theorem C84_parsers16 (md : Build) (d : Nat) (h : 4 ≤ d) (w : BitVec 16) (op : OpcodeKind) (isa : Isa) :
    callSteps crate md d .u16 .parse_opcode [emb w, emb isa] ≤ 378 ∧
    callSteps crate md d .u16 .parse_rd [emb w, emb op] ≤ 141 ∧
    callSteps crate md d .u16 .parse_rs1 [emb w, emb op] ≤ 141 ∧
    callSteps crate md d .u16 .parse_rs2 [emb w, emb op] ≤ 108 ∧
    callSteps crate md d .u16 .parse_imm [emb w, emb op, emb isa] ≤ 511 := by
  obtain ⟨h1, h2, h3, h4, h5⟩ := C60_parsers16 md 4 (Nat.le_refl _) w op isa
  refine ⟨work_le md (by decide) h (by rw [h1]; exact outR_not_stuck _) ?_ (by kernel_rfl),
    work_le md (by decide) h (by rw [h2]; exact outR_not_stuck _) ?_ (by kernel_rfl),
    work_le md (by decide) h (by rw [h3]; exact outR_not_stuck _) ?_ (by kernel_rfl),
    work_le md (by decide) h (by rw [h4]; exact outR_not_stuck _) ?_ (by kernel_rfl),
    work_le md (by decide) h (by rw [h5]; exact outR_not_stuck _) ?_ (by kernel_rfl)⟩
  · simpa using ⟨.u16 w, small_isa 20 isa⟩
  · simpa using ⟨.u16 w, small_opcode 20 op⟩
  · simpa using ⟨.u16 w, small_opcode 20 op⟩
  · simpa using ⟨.u16 w, small_opcode 20 op⟩
  · simpa using ⟨.u16 w, small_opcode 20 op, small_isa 20 isa⟩

theorem setLoop_ne_err (x : BitVec 32) (ms : List Nat) (i : Nat) (acc : BitVec 32) (e : DecodingError) :
    setLoop x ms i acc ≠ .err e ∧ Release.setLoop x ms i acc ≠ .err e := by
  induction ms generalizing i acc with
  | nil => exact ⟨nofun, nofun⟩
  | cons m ms ih =>
    simp only [setLoop, Release.setLoop, shrU, shlU, Release.shrU, Release.shlU]
    constructor
    · split
      · simp only [RustM.bind_ok]
        split
        · exact (ih _ _).1
        · nofun
      · nofun
    · exact (ih _ _).2

theorem outV_not_stuck {α : Type} [Emb α] {x : RustM α} (h : ∀ e, x ≠ .err e) : outV x ≠ .stuck := by
  cases x with
  | ok a => nofun
  | err e => exact absurd rfl (h e)
  | panic => nofun

/-- The steps of a function that calls no other. -/
theorem leaf_le (len : Nat) (md : Build) {o f : Id} {fn : Fn} (hf : find crate o f = some fn) {args : List Val}
    (ha : ∀ v ∈ args, Small len v) (hb : fits len fn.body = true) {k : Nat} (hk : 1 + bound len (costs []) [] fn.body ≤ k)
    {d : Nat} (h : 1 ≤ d) (hs : call crate md 1 o f args ≠ .stuck) : callSteps crate md d o f args ≤ k := by
  rw [← callSteps_eq (Sub.refl crate) md h o f args hs]
  simp only [callSteps, hf, runSteps]
  split
  · rename_i env he
    refine Nat.le_trans (Nat.add_le_add_left (steps_le md (len := len) (c := costs []) (b := [])
      (call := call crate md 0) (fun _ _ _ _ => trivial) (fun o f => ⟨Nat.le_refl _, fun _ _ => Nat.zero_le _⟩) (bindParams_small ha he)
      (fun _ => Nat.le_refl _) _ hb) 1) hk
  · exact Nat.zero_le _

/-- C84.  The helper that places bits takes at most eight steps (on a `u16`, nine) for each bit, and seven more. -/
theorem C84_set (md : Build) (d : Nat) (h : 1 ≤ d) (w : BitVec 32) (v : BitVec 16) (mask : List (BitVec 32)) :
    callSteps crate md d .u32 .«set» [emb w, .array (mask.map emb)] ≤ 7 + 8 * mask.length ∧
    callSteps crate md d .u16 .«set» [emb v, .array (mask.map emb)] ≤ 7 + 9 * mask.length := by
  have hm : Small mask.length (.array (mask.map emb)) :=
    .array (by simp) (by simp only [List.mem_map]; rintro _ ⟨a, -, rfl⟩; exact .u32 a)
  have h1 : ∀ (ms : List Nat) (x acc : BitVec 32), outV (setLoop x ms 0 acc) ≠ .stuck ∧
      outV (Release.setLoop x ms 0 acc) ≠ .stuck := fun ms x acc =>
    ⟨outV_not_stuck fun e => (setLoop_ne_err x ms 0 acc e).1, outV_not_stuck fun e => (setLoop_ne_err x ms 0 acc e).2⟩
  obtain ⟨md, p⟩ := md
  obtain ⟨-, -, ⟨hc1, hc2⟩, ⟨hc3, hc4⟩, -, -⟩ := C60_helpers p 1 (Nat.le_refl _) w v 0 0 0 0 mask
  constructor
  · refine leaf_le mask.length ⟨md, p⟩ (fn := u32_set) (by kernel_rfl) ?_ rfl ?_ h ?_
    · simpa using ⟨.u32 w, hm⟩
    · simp [u32_set, bound, boundStmts]; omega
    · cases md
      · rw [hc1]; exact (h1 _ _ _).1
      · rw [hc2]; exact (h1 _ _ _).2
  · refine leaf_le mask.length ⟨md, p⟩ (fn := u16_set) (by kernel_rfl) ?_ rfl ?_ h ?_
    · simpa using ⟨.u16 v, hm⟩
    · simp [u16_set, bound, boundStmts]; omega
    · cases md
      · rw [hc3]; exact (h1 _ _ _).1
      · rw [hc4]; exact (h1 _ _ _).2

/-- C84.  What some words take: a branch, a return, a word that is no instruction, and the conversion of a number that
does not fit. -/
theorem C84_examples (d : Nat) (h : 6 ≤ d) :
    callSteps crate ⟨.checked, .w64⟩ d .u32 .decode [emb 0xfe00cee3#32, emb Isa.Rv64] = 827 ∧
    callSteps crate ⟨.checked, .w64⟩ d .u16 .decode [emb 0x8082#16, emb Isa.Rv64] = 725 ∧
    callSteps crate ⟨.checked, .w64⟩ d .u32 .decode [emb 0#32, emb Isa.Rv64] = 313 ∧
    callSteps crate ⟨.checked, .w64⟩ d .Instruction .try_from [emb (2 ^ 32)] = 11 := by
  refine ⟨?_, ?_, ?_, ?_⟩
  · rw [← callSteps_eq (Sub.refl crate) _ h _ _ _ (by rw [C60_decode32 _ 6 (by decide)]; exact outR_not_stuck _)]
    kernel_rfl
  · rw [← callSteps_eq (Sub.refl crate) _ h _ _ _ (by rw [C60_decode16 _ 6 (by decide)]; exact outR_not_stuck _)]
    kernel_rfl
  · rw [← callSteps_eq (Sub.refl crate) _ h _ _ _ (by rw [C60_decode32 _ 6 (by decide)]; exact outR_not_stuck _)]
    kernel_rfl
  · rw [← callSteps_eq (Sub.refl crate) _ h _ _ _ (by rw [C60_try_from _ 6 (by decide)]; exact outR_not_stuck _)]
    kernel_rfl

end Raki
