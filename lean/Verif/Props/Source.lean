import Verif.Source.Display
import Verif.Source.Faithful
import Verif.Props.Total
import Verif.Props.Display
import Verif.Props.RoundTrip32
import Verif.Props.RoundTrip16
/-!
# Properties of the source text

`Source.crate` is the text of the crate's functions, translated into a syntax tree by `tools/source.py`.
`Source.call` runs it, in a build with overflow checks (`.checked`) or without (`.wrapping`), for a target whose
pointers have 16, 32 or 64 bits; `depth` bounds
how deeply calls may nest, and a run that exceeds it, or meets anything the rules do not cover, is `.stuck`.
The model was written by hand from the same text; the theorems below relate the two.
-/

namespace Raki

open Source

theorem depth_le {d k : Nat} (h : k ≤ d) : ∃ n, d = n + k := ⟨d - k, by omega⟩

/-! ## C60: running the source gives what the model says -/

/-- C60.  Running `u32`'s `decode`, for every word, ISA and build. -/
theorem C60_decode32 (md : Build) (d : Nat) (h : 4 ≤ d) (w : BitVec 32) (isa : Isa) :
    call crate md d .u32 .decode [emb w, emb isa] = outR (U32.decode w isa) := by
  obtain ⟨n, rfl⟩ := depth_le h
  exact u32_decode_eq md n w isa

/-- C60.  Running `u16`'s `decode`. -/
theorem C60_decode16 (md : Build) (d : Nat) (h : 5 ≤ d) (w : BitVec 16) (isa : Isa) :
    call crate md d .u16 .decode [emb w, emb isa] = outR (U16.decode w isa) := by
  obtain ⟨n, rfl⟩ := depth_le h
  exact u16_decode_eq md n w isa

/-- C60.  Running the conversion from `usize`. -/
theorem C60_try_from (md : Build) (d : Nat) (h : 6 ≤ d) (x : Nat) :
    call crate md d .Instruction .try_from [emb x] = outR (try_from x) := by
  obtain ⟨n, rfl⟩ := depth_le h
  exact Instruction_try_from_eq md n x

/-- C60.  Running `Display`, for every value of `Instruction`, decoded or not. -/
theorem C60_display (md : Build) (d : Nat) (h : 3 ≤ d) (i : Instruction) :
    text (call crate md d .Instruction .fmt [emb i]) = outV i.fmt := by
  obtain ⟨n, rfl⟩ := depth_le h
  rw [Instruction_fmt_eq md n i]
  rcases fmtTo_agree (fun s _ => (s, true)) () i with ⟨h1, -, h2⟩ | ⟨cs, h1, -, h2⟩ <;> rw [h1, h2] <;> rfl

/-- C60.  Running `Display` into a sink, which may refuse to take more: the same calls of the sink, in the same
order, and the same result. -/
theorem C60_display_to {σ : Type} (w : Sink σ) (s : σ) (md : Build) (d : Nat) (h : 3 ≤ d) (i : Instruction) :
    writeTo w s (call crate md d .Instruction .fmt [emb i]) = some (i.fmtTo w s) := by
  obtain ⟨n, rfl⟩ := depth_le h
  rw [Instruction_fmt_eq md n i]
  rcases fmtTo_agree w s i with ⟨-, h1, h2⟩ | ⟨cs, -, h1, h2⟩ <;> rw [h1, h2] <;> rfl

/-- C60.  Running the parsers of a `u32`, on every opcode. -/
theorem C60_parsers32 (md : Build) (d : Nat) (h : 3 ≤ d) (w : BitVec 32) (op : OpcodeKind) (isa : Isa) :
    call crate md d .u32 .parse_opcode [emb w, emb isa] = outR (U32.parse_opcode w isa) ∧
    call crate md d .u32 .parse_rd [emb w, emb op] = outR (U32.parse_rd w op) ∧
    call crate md d .u32 .parse_rs1 [emb w, emb op] = outR (U32.parse_rs1 w op) ∧
    call crate md d .u32 .parse_rs2 [emb w, emb op] = outR (U32.parse_rs2 w op) ∧
    call crate md d .u32 .parse_imm [emb w, emb op, emb isa] = outR (U32.parse_imm w op isa) := by
  obtain ⟨n, rfl⟩ := depth_le h
  exact ⟨u32_parse_opcode_eq md n w isa, u32_parse_rd_eq md n w op, u32_parse_rs1_eq md n w op,
    u32_parse_rs2_eq md n w op, u32_parse_imm_eq md n w op isa⟩

/-- C60.  Running the parsers of a `u16`. -/
theorem C60_parsers16 (md : Build) (d : Nat) (h : 4 ≤ d) (w : BitVec 16) (op : OpcodeKind) (isa : Isa) :
    call crate md d .u16 .parse_opcode [emb w, emb isa] = outR (U16.parse_opcode w isa) ∧
    call crate md d .u16 .parse_rd [emb w, emb op] = outR (U16.parse_rd w op) ∧
    call crate md d .u16 .parse_rs1 [emb w, emb op] = outR (U16.parse_rs1 w op) ∧
    call crate md d .u16 .parse_rs2 [emb w, emb op] = outR (U16.parse_rs2 w op) ∧
    call crate md d .u16 .parse_imm [emb w, emb op, emb isa] = outR (U16.parse_imm w op isa) := by
  obtain ⟨n, rfl⟩ := depth_le h
  exact ⟨u16_parse_opcode_eq md n w isa, u16_parse_rd_eq md (n + 1) w op, u16_parse_rs1_eq md (n + 1) w op,
    u16_parse_rs2_eq md (n + 1) w op, u16_parse_imm_eq md (n + 1) w op isa⟩

/-- C60.  Running `get_format`. -/
theorem C60_format (md : Build) (d : Nat) (h : 2 ≤ d) (op : OpcodeKind) :
    call crate md d .OpcodeKind .get_format [emb op] = .val (emb op.getFormat) := by
  obtain ⟨n, rfl⟩ := depth_le h
  exact OpcodeKind_get_format_eq md n op

/-- C60.  Running `Display` of an opcode writes its name in one piece. -/
theorem C60_name (md : Build) (d : Nat) (h : 2 ≤ d) (op : OpcodeKind) :
    call crate md d .OpcodeKind .fmt [emb op] = .val (.wrote [op.toStr]) := by
  obtain ⟨n, rfl⟩ := depth_le h
  exact OpcodeKind_fmt_eq md n op

/-- C60.  The same two functions of the opcodes of each extension. -/
theorem C60_extensions (md : Build) (d : Nat) (h : 1 ≤ d) :
    (∀ o : BaseIOpcode, call crate md d .BaseIOpcode .get_format [emb o] = .val (emb o.getFormat) ∧
      call crate md d .BaseIOpcode .fmt [emb o] = .val (.wrote [(OpcodeKind.BaseI o).toStr])) ∧
    (∀ o : MOpcode, call crate md d .MOpcode .get_format [emb o] = .val (emb o.getFormat) ∧
      call crate md d .MOpcode .fmt [emb o] = .val (.wrote [(OpcodeKind.M o).toStr])) ∧
    (∀ o : AOpcode, call crate md d .AOpcode .get_format [emb o] = .val (emb o.getFormat) ∧
      call crate md d .AOpcode .fmt [emb o] = .val (.wrote [(OpcodeKind.A o).toStr])) ∧
    (∀ o : COpcode, call crate md d .COpcode .get_format [emb o] = .val (emb o.getFormat) ∧
      call crate md d .COpcode .fmt [emb o] = .val (.wrote [(OpcodeKind.C o).toStr])) ∧
    (∀ o : ZifenceiOpcode, call crate md d .ZifenceiOpcode .get_format [emb o] = .val (emb o.getFormat) ∧
      call crate md d .ZifenceiOpcode .fmt [emb o] = .val (.wrote [(OpcodeKind.Zifencei o).toStr])) ∧
    (∀ o : ZicbozOpcode, call crate md d .ZicbozOpcode .get_format [emb o] = .val (emb o.getFormat) ∧
      call crate md d .ZicbozOpcode .fmt [emb o] = .val (.wrote [(OpcodeKind.Zicboz o).toStr])) ∧
    (∀ o : ZicsrOpcode, call crate md d .ZicsrOpcode .get_format [emb o] = .val (emb o.getFormat) ∧
      call crate md d .ZicsrOpcode .fmt [emb o] = .val (.wrote [(OpcodeKind.Zicsr o).toStr])) ∧
    (∀ o : ZicfissOpcode, call crate md d .ZicfissOpcode .get_format [emb o] = .val (emb o.getFormat) ∧
      call crate md d .ZicfissOpcode .fmt [emb o] = .val (.wrote [(OpcodeKind.Zicfiss o).toStr])) ∧
    (∀ o : ZicntrOpcode, call crate md d .ZicntrOpcode .get_format [emb o] = .val (emb o.getFormat) ∧
      call crate md d .ZicntrOpcode .fmt [emb o] = .val (.wrote [(OpcodeKind.Zicntr o).toStr])) ∧
    (∀ o : PrivOpcode, call crate md d .PrivOpcode .get_format [emb o] = .val (emb o.getFormat) ∧
      call crate md d .PrivOpcode .fmt [emb o] = .val (.wrote [(OpcodeKind.Priv o).toStr])) := by
  obtain ⟨n, rfl⟩ := depth_le h
  exact ⟨fun o => ⟨BaseIOpcode_get_format_eq md n o, BaseIOpcode_fmt_eq md n o⟩,
    fun o => ⟨MOpcode_get_format_eq md n o, MOpcode_fmt_eq md n o⟩,
    fun o => ⟨AOpcode_get_format_eq md n o, AOpcode_fmt_eq md n o⟩,
    fun o => ⟨COpcode_get_format_eq md n o, COpcode_fmt_eq md n o⟩,
    fun o => ⟨ZifenceiOpcode_get_format_eq md n o, ZifenceiOpcode_fmt_eq md n o⟩,
    fun o => ⟨ZicbozOpcode_get_format_eq md n o, ZicbozOpcode_fmt_eq md n o⟩,
    fun o => ⟨ZicsrOpcode_get_format_eq md n o, ZicsrOpcode_fmt_eq md n o⟩,
    fun o => ⟨ZicfissOpcode_get_format_eq md n o, ZicfissOpcode_fmt_eq md n o⟩,
    fun o => ⟨ZicntrOpcode_get_format_eq md n o, ZicntrOpcode_fmt_eq md n o⟩,
    fun o => ⟨PrivOpcode_get_format_eq md n o, PrivOpcode_fmt_eq md n o⟩⟩

/-- C60.  Running the helpers, on all their arguments, with overflow checks and without. -/
theorem C60_helpers (p : PtrWidth) (d : Nat) (h : 1 ≤ d) (w : BitVec 32) (v : BitVec 16) (e s k : BitVec 32) (x : Int)
    (mask : List (BitVec 32)) :
    (call crate ⟨.checked, p⟩ d .u32 .slice [emb w, emb e, emb s] = outV (U32.slice w e.toNat s.toNat) ∧
      call crate ⟨.wrapping, p⟩ d .u32 .slice [emb w, emb e, emb s] = outV (Release.U32.slice w e.toNat s.toNat)) ∧
    (call crate ⟨.checked, p⟩ d .u16 .slice [emb v, emb e, emb s] = outV (U16.slice v e.toNat s.toNat) ∧
      call crate ⟨.wrapping, p⟩ d .u16 .slice [emb v, emb e, emb s] = outV (Release.U16.slice v e.toNat s.toNat)) ∧
    (call crate ⟨.checked, p⟩ d .u32 .«set» [emb w, .array (mask.map emb)] = outV (U32.set w (mask.map BitVec.toNat)) ∧
      call crate ⟨.wrapping, p⟩ d .u32 .«set» [emb w, .array (mask.map emb)] =
        outV (Release.U32.set w (mask.map BitVec.toNat))) ∧
    (call crate ⟨.checked, p⟩ d .u16 .«set» [emb v, .array (mask.map emb)] = outV (U16.set v (mask.map BitVec.toNat)) ∧
      call crate ⟨.wrapping, p⟩ d .u16 .«set» [emb v, .array (mask.map emb)] =
        outV (Release.U16.set v (mask.map BitVec.toNat))) ∧
    (call crate ⟨.checked, p⟩ d .u32 .to_signed_nbit [emb w, emb x, emb k] = outV (to_signed_nbit x k.toNat) ∧
      call crate ⟨.wrapping, p⟩ d .u32 .to_signed_nbit [emb w, emb x, emb k] =
        outV (Release.to_signed_nbit x k.toNat)) ∧
    (call crate ⟨.checked, p⟩ d .u16 .to_signed_nbit [emb v, emb x, emb k] = outV (to_signed_nbit x k.toNat) ∧
      call crate ⟨.wrapping, p⟩ d .u16 .to_signed_nbit [emb v, emb x, emb k] =
        outV (Release.to_signed_nbit x k.toNat)) := by
  obtain ⟨n, rfl⟩ := depth_le h
  exact ⟨⟨slice32_checked p w e s n, slice32_wrapping p w e s n⟩, ⟨slice16_checked p v e s n, slice16_wrapping p v e s n⟩,
    ⟨set32_checked p w mask n, set32_wrapping p w mask n⟩, ⟨set16_checked p v mask n, set16_wrapping p v mask n⟩,
    ⟨signed32_checked p _ x k n, signed32_wrapping p _ x k n⟩, ⟨signed16_checked p _ x k n, signed16_wrapping p _ x k n⟩⟩

/-- C60.  Running the function that finds the extension a word belongs to. -/
theorem C60_parse_extension (md : Build) (d : Nat) (h : 2 ≤ d) (w : BitVec 32) (v : BitVec 16) :
    call crate md d .u32 .parse_extension [emb w] = outR (U32.parse_extension w) ∧
    call crate md d .u16 .parse_extension [emb v] = outR (U16.parse_extension v) := by
  obtain ⟨n, rfl⟩ := depth_le h
  exact ⟨u32_parse_extension_eq md n w, u16_parse_extension_eq md (n + 1) v⟩

theorem emb_inj_option {α : Type} [Emb α] (h : ∀ a b : α, emb a = emb b → a = b) (a b : Option α)
    (e : emb a = emb b) : a = b := by
  cases a <;> cases b <;> first
    | rfl
    | exact congrArg _ (h _ _ (Val.variantOf.inj e).2.2)
    | cases e

theorem emb_inj_instruction (a b : Instruction) (e : emb a = emb b) : a = b := by
  obtain ⟨a1, a2, a3, a4, a5, a6, a7⟩ := a
  obtain ⟨b1, b2, b3, b4, b5, b6, b7⟩ := b
  have e := (Val.struct.inj e).2
  simp only [List.cons.injEq, Prod.mk.injEq, true_and, and_true] at e
  obtain ⟨e1, e2, e3, e4, e5, e6, e7⟩ := e
  have hn : ∀ x y : Nat, emb x = emb y → x = y := fun x y h => Val.usize.inj h
  have hz : ∀ x y : Int, emb x = emb y → x = y := fun x y h => Val.i32.inj h
  rw [emb_inj_OpcodeKind _ _ e1, emb_inj_option hn _ _ e2, emb_inj_option hn _ _ e3, emb_inj_option hn _ _ e4,
    emb_inj_option hz _ _ e5, emb_inj_InstFormat _ _ e6, Val.bool.inj e7]

/-- C60.  Nothing is lost in the correspondence: different outcomes of the model stand for different runs. -/
theorem C60_faithful (x y : RustM Instruction) (h : outR x = outR y) : x = y := by
  cases x <;> cases y <;> simp only [outR, Out.val.injEq, Val.variantOf.injEq, reduceCtorEq, true_and, false_and] at h
  · rw [emb_inj_instruction _ _ h]
  · rw [emb_inj_DecodingError _ _ h]
  · rfl

-- `c.addi4spn` has an answer; zero does not
example : ∃ i, call crate ⟨.checked, .w64⟩ 5 .u16 .decode [emb (0x0040#16), emb Isa.Rv64] =
    .val (.variantOf .Result .Ok (emb (i : Instruction))) := ⟨_, C60_decode16 ⟨.checked, .w64⟩ 5 (by decide) 0x0040#16 .Rv64⟩
example : call crate ⟨.checked, .w64⟩ 5 .u16 .decode [emb (0#16), emb Isa.Rv64] =
    .val (.variantOf .Result .Err (.variant .DecodingError .IllegalInstruction)) := rfl
-- a depth that is too small is not mistaken for an answer
example : call crate ⟨.checked, .w64⟩ 1 .u32 .decode [emb (0x00500093#32), emb Isa.Rv64] = .stuck := rfl

/-! ## C61: what running the source does, without the model -/

/-- C61.  Running `decode` on a `u32` returns; it never panics, in either build. -/
theorem C61_decode32_returns (md : Build) (d : Nat) (h : 4 ≤ d) (w : BitVec 32) (isa : Isa) :
    (∃ i : Instruction, call crate md d .u32 .decode [emb w, emb isa] = .val (.variantOf .Result .Ok (emb i))) ∨
    (∃ e : DecodingError,
      call crate md d .u32 .decode [emb w, emb isa] = .val (.variantOf .Result .Err (emb e))) := by
  rw [C60_decode32 md d h]
  rcases C01_decode32_total w isa with ⟨i, hi⟩ | ⟨e, he⟩
  · exact .inl ⟨i, by rw [hi]; rfl⟩
  · exact .inr ⟨e, by rw [he]; rfl⟩

/-- C61.  Running `decode` on a `u16` returns; it never panics, in either build. -/
theorem C61_decode16_returns (md : Build) (d : Nat) (h : 5 ≤ d) (w : BitVec 16) (isa : Isa) :
    (∃ i : Instruction, call crate md d .u16 .decode [emb w, emb isa] = .val (.variantOf .Result .Ok (emb i))) ∨
    (∃ e : DecodingError,
      call crate md d .u16 .decode [emb w, emb isa] = .val (.variantOf .Result .Err (emb e))) := by
  rw [C60_decode16 md d h]
  rcases C02_decode16_total w isa with ⟨i, hi⟩ | ⟨e, he⟩
  · exact .inl ⟨i, by rw [hi]; rfl⟩
  · exact .inr ⟨e, by rw [he]; rfl⟩

theorem outR_panic {α : Type} [Emb α] (x : RustM α) : outR x = .panic ↔ x = .panic := by
  cases x <;> simp [outR]

theorem text_panic (x : Out Val) : text x = .panic ↔ x = .panic := by
  unfold text; split <;> simp

theorem outV_panic {α : Type} [Emb α] (x : RustM α) : outV x = .panic ↔ x = .panic := by
  cases x <;> simp [outV]

/-- C61.  Running the conversion panics exactly on the values too wide for the length their low bits select. -/
theorem C61_try_from_panics (md : Build) (d : Nat) (h : 6 ≤ d) (x : Nat) :
    call crate md d .Instruction .try_from [emb x] = .panic ↔
      (x % 4 = 3 ∧ 2 ^ 32 ≤ x) ∨ (x % 4 ≠ 3 ∧ 2 ^ 16 ≤ x) := by
  rw [C60_try_from md d h, outR_panic, C43_try_from_panics]

/-- C61.  Running `Display` on what `decode` returned panics exactly for four opcodes. -/
theorem C61_display_panics (md : Build) (d : Nat) (h : 3 ≤ d) (i : Instruction) (hi : Decoded i) :
    call crate md d .Instruction .fmt [emb i] = .panic ↔
      i.opc = .Zicfiss .SSPOPCHK ∨ i.opc = .Zicfiss .C_SSPUSH ∨ i.opc = .Zicfiss .C_SSPOPCHK ∨
      i.opc = .Priv .SFENCE_VMA := by
  rw [← C49_display_panics_iff i hi, ← outV_panic, ← C60_display md d h, text_panic]

/-- C61.  Neither overflow checks nor the width of pointers change anything a caller of `decode`, `try_from` or
`Display` can see. -/
theorem C61_builds_agree (md md' : Build) (d d' : Nat) (h : 6 ≤ d) (h' : 6 ≤ d') (w : BitVec 32) (v : BitVec 16)
    (x : Nat) (isa : Isa) (i : Instruction) :
    call crate md d .u32 .decode [emb w, emb isa] = call crate md' d' .u32 .decode [emb w, emb isa] ∧
    call crate md d .u16 .decode [emb v, emb isa] = call crate md' d' .u16 .decode [emb v, emb isa] ∧
    call crate md d .Instruction .try_from [emb x] = call crate md' d' .Instruction .try_from [emb x] ∧
    call crate md d .Instruction .fmt [emb i] = call crate md' d' .Instruction .fmt [emb i] := by
  rw [C60_decode32 _ _ (by omega), C60_decode32 _ _ (by omega), C60_decode16 _ _ (by omega),
    C60_decode16 _ _ (by omega), C60_try_from _ _ (by omega), C60_try_from _ _ (by omega)]
  obtain ⟨n, rfl⟩ := depth_le (show 3 ≤ d by omega)
  obtain ⟨n', rfl⟩ := depth_le (show 3 ≤ d' by omega)
  rw [Instruction_fmt_eq, Instruction_fmt_eq]
  exact ⟨rfl, rfl, rfl, rfl⟩

open Raki.Spec in
/-- C61.  Running `decode` on what the assembler of the specification emits gives the instruction back. -/
theorem C61_round_trip32 (md : Build) (d : Nat) (h : 4 ≤ d) (isa : Isa) (i : Instruction) (hi : WF32 isa i) :
    call crate md d .u32 .decode [emb (BitVec.ofNat 32 (asm32 i)), emb isa] =
      .val (.variantOf .Result .Ok (emb i)) := by
  rw [C60_decode32 md d h, (C28_encode_decode isa i hi).2]; rfl

open Raki.Spec in
/-- C61.  The same for 16-bit encodings. -/
theorem C61_round_trip16 (md : Build) (d : Nat) (h : 5 ≤ d) (isa : Isa) (i : Instruction) (hi : WF16 isa i) :
    call crate md d .u16 .decode [emb (BitVec.ofNat 16 (asm16 i)), emb isa] =
      .val (.variantOf .Result .Ok (emb i)) := by
  rw [C60_decode16 md d h, (C30_encode_decode isa i hi).2]; rfl

example : call crate ⟨.wrapping, .w64⟩ 6 .Instruction .try_from [emb 0x10000] = .panic := rfl
example : ∃ i, call crate ⟨.wrapping, .w64⟩ 6 .Instruction .try_from [emb 0x00500093] =
    .val (.variantOf .Result .Ok (emb (i : Instruction))) := ⟨_, C60_try_from ⟨.wrapping, .w64⟩ 6 (by decide) 0x00500093⟩
-- `sfence.vma` is decoded, and printing it panics; `addi` is decoded, and printing it does not
example : Decoded ⟨.Priv .SFENCE_VMA, none, some 0, some 0, none, .RFormat, false⟩ :=
  .inl ⟨0x12000073, .Rv64, rfl⟩
example : call crate ⟨.wrapping, .w64⟩ 3 .Instruction .fmt
    [emb (⟨.Priv .SFENCE_VMA, none, some 0, some 0, none, .RFormat, false⟩ : Instruction)] = .panic := rfl
example : call crate ⟨.wrapping, .w64⟩ 3 .Instruction .fmt
    [emb (⟨.BaseI .ADDI, some 1, some 0, none, some 5, .IFormat, false⟩ : Instruction)] ≠ .panic := nofun
-- the round trips have instances
example : Spec.WF32 .Rv32 ⟨.BaseI .BEQ, none, some 5, some 31, some (-4096), .BFormat, false⟩ := by
  refine ⟨by simp [Spec.existsIn, Spec.gated64], by simp, rfl, _, rfl, rfl, rfl, ⟨5, rfl, by decide⟩,
    ⟨31, rfl, by decide⟩, ⟨-4096, rfl, by simp [Spec.immRange32]⟩⟩
example : Spec.WF16 .Rv64 ⟨.C .BEQZ, none, some 8, none, some (-6), .CbFormat, true⟩ :=
  ⟨trivial, rfl, rfl, rfl, ⟨8, rfl, by decide⟩, rfl, ⟨-6, rfl, by simp [Spec.immRange16]⟩⟩

end Raki
