import Verif.Lemmas.ListingAsm
import Verif.Props.RoundTrip32
import Verif.Props.RoundTrip16
import Verif.Props.Accept
/-!
# The decoder and the instruction listings
-/

namespace Raki

open Spec

/-- The operands of an instruction value. -/
def Instruction.operands (i : Instruction) : Operands := ⟨i.rd, i.rs1, i.rs2, i.imm⟩

/-! ## C62 -/

/-- C62.  A word that is an instance of a row of the listings is decoded as the instruction of that row, with
the operands that the row shows. -/
theorem C62_listed32 (w : BitVec 32) (isa : Isa) (op : OpcodeKind) (l : Listed)
    (hl : listing32 isa op = some l) (hc : l.covers 32 w.toNat) :
    ∃ i, U32.decode w isa = .ok i ∧ i.opc = op ∧ i.operands = l.operands 32 w.toNat := by
  have ho := (covers_iff_official32 isa op w.toNat).1 ⟨l, hl, hc⟩
  obtain ⟨i, hi, rfl⟩ := C05_official32_decoded w isa op ho
  obtain ⟨r, hr, -, hv⟩ := (decode32_ok_iff w isa i).1 hi
  refine ⟨i, hi, rfl, ?_⟩
  rw [listed_operands32 isa i.opc w.toNat l r hl hr hc]
  generalize i.opc = op at *
  rw [hv]; rfl

/-- C62, compressed instructions, except for the hints `c.add x0, rs2`, which are decoded as `c.ebreak`. -/
theorem C62_listed16 (h : BitVec 16) (isa : Isa) (op : OpcodeKind) (l : Listed)
    (hl : listing16 isa op = some l) (hc : l.covers 16 h.toNat)
    (hne : ¬ (op = .C .ADD ∧ (l.operands 16 h.toNat).rd = some 0)) :
    ∃ i, U16.decode h isa = .ok i ∧ i.opc = op ∧ i.operands = l.operands 16 h.toNat := by
  have ho := (covers_iff_official16 isa op h.toNat h.isLt).1 ⟨l, hl, hc⟩
  have he := listed_operands16 isa op h.toNat l hl hc
  have hx : ¬ (op = .C .ADD ∧ fld h.toNat 11 7 = 0) := by
    rintro ⟨rfl, h0⟩
    exact hne ⟨rfl, by rw [he]; simp [rd16, h0]⟩
  obtain ⟨i, hi, rfl⟩ := C08_official16_decoded_partial h isa op ho hx
  obtain ⟨-, hv⟩ := (decode16_ok_iff h isa i).1 hi
  refine ⟨i, hi, rfl, ?_⟩
  rw [he]
  generalize i.opc = op at *
  rw [hv]; rfl

/-- C62, the other way round, for the opcodes for which it holds (see C06): a word decoded as `op` is an
instance of the row of `op`. -/
theorem C62_only_listed32 (w : BitVec 32) (isa : Isa) (i : Instruction) (h : U32.decode w isa = .ok i)
    (hs : strict32 i.opc = true) :
    ∃ l, listing32 isa i.opc = some l ∧ l.covers 32 w.toNat ∧ i.operands = l.operands 32 w.toNat := by
  have ho := (C06_sound32_partial w isa i.opc hs).1 ⟨i, h, rfl⟩
  obtain ⟨l, hl, hc⟩ := (covers_iff_official32 isa i.opc w.toNat).2 ho
  obtain ⟨j, hj, -, hv⟩ := C62_listed32 w isa i.opc l hl hc
  rw [h] at hj; injection hj with hj; subst hj
  exact ⟨l, hl, hc, hv⟩

/-- C62, the other way round, for compressed opcodes (see C09). -/
theorem C62_only_listed16 (h : BitVec 16) (isa : Isa) (i : Instruction) (hd : U16.decode h isa = .ok i)
    (hs : strict16 i.opc = true) :
    ∃ l, listing16 isa i.opc = some l ∧ l.covers 16 h.toNat ∧ i.operands = l.operands 16 h.toNat := by
  have ho := (C09_sound16_partial h isa i.opc hs).1 ⟨i, hd, rfl⟩
  obtain ⟨l, hl, hc⟩ := (covers_iff_official16 isa i.opc h.toNat h.isLt).2 ho
  obtain ⟨j, hj, -, hv⟩ := C62_listed16 h isa i.opc l hl hc (by
    rintro ⟨h1, -⟩
    rw [h1] at hs; cases hs)
  rw [hd] at hj; injection hj with hj; subst hj
  exact ⟨l, hl, hc, hv⟩

/-- C62.  No word is an instance of rows of two instructions. -/
theorem C62_no_overlap32 (w : BitVec 32) (isa : Isa) (op op' : OpcodeKind) (l l' : Listed)
    (hl : listing32 isa op = some l) (hl' : listing32 isa op' = some l')
    (hc : l.covers 32 w.toNat) (hc' : l'.covers 32 w.toNat) : op = op' := by
  obtain ⟨i, hi, ho, -⟩ := C62_listed32 w isa op l hl hc
  obtain ⟨i', hi', ho', -⟩ := C62_listed32 w isa op' l' hl' hc'
  rw [hi] at hi'; injection hi' with hi'; subst hi'
  exact ho.symm.trans ho'

/-- C62.  No halfword is an instance of rows of two instructions. -/
theorem C62_no_overlap16 (h : BitVec 16) (isa : Isa) (op op' : OpcodeKind) (l l' : Listed)
    (hl : listing16 isa op = some l) (hl' : listing16 isa op' = some l')
    (hc : l.covers 16 h.toNat) (hc' : l'.covers 16 h.toNat) : op = op' := by
  have ho := (covers_iff_official16 isa op h.toNat h.isLt).1 ⟨l, hl, hc⟩
  have ho' := (covers_iff_official16 isa op' h.toNat h.isLt).1 ⟨l', hl', hc'⟩
  have key : ∀ op op', official16 isa h.toNat op → official16 isa h.toNat op' →
      op = .C .ADD ∧ fld h.toNat 11 7 = 0 → op = op' := by
    rintro op op' ho ho' ⟨rfl, h0⟩
    by_cases hx' : op' = .C .ADD ∧ fld h.toNat 11 7 = 0
    · exact hx'.1.symm
    · obtain ⟨i, hi, hio⟩ := C08_add_x0 h isa ho h0
      obtain ⟨i', hi', hio'⟩ := C08_official16_decoded_partial h isa op' ho' hx'
      rw [hi] at hi'; injection hi' with hi'; subst hi'
      rw [hio] at hio'
      subst hio'
      exact absurd ho'.2.2.2 ho.2.2
  by_cases hx : op = .C .ADD ∧ fld h.toNat 11 7 = 0
  · exact key op op' ho ho' hx
  by_cases hx' : op' = .C .ADD ∧ fld h.toNat 11 7 = 0
  · exact (key op' op ho' ho hx').symm
  obtain ⟨i, hi, hio⟩ := C08_official16_decoded_partial h isa op ho hx
  obtain ⟨i', hi', hio'⟩ := C08_official16_decoded_partial h isa op' ho' hx'
  rw [hi] at hi'; injection hi' with hi'; subst hi'
  exact hio.symm.trans hio'

/-- C62.  The rows have 32 bits, and show no bit of the immediate twice. -/
theorem C62_rows32 (isa : Isa) (op : OpcodeKind) (l : Listed) (hl : listing32 isa op = some l) :
    l.bits = 32 ∧ l.immBits.Nodup := by
  rcases op with o | o | o | o | o | o | o | o | o | o
  all_goals cases o
  all_goals cases isa
  all_goals simp only [listing32, on, Option.some.injEq, reduceCtorEq] at hl
  all_goals subst hl
  all_goals exact ⟨rfl, by decide⟩

/-- C62.  The rows of compressed instructions have 16 bits, and show no bit of the immediate twice. -/
theorem C62_rows16 (isa : Isa) (op : OpcodeKind) (l : Listed) (hl : listing16 isa op = some l) :
    l.bits = 16 ∧ l.immBits.Nodup := by
  rcases op with o | o | o | o | o | o | o | o | o | o
  all_goals cases o
  all_goals cases isa
  all_goals simp only [listing16, on, Option.some.injEq, reduceCtorEq] at hl
  all_goals subst hl
  all_goals exact ⟨rfl, by decide⟩

example : ∃ l, listing32 .Rv32 (.BaseI .BEQ) = some l ∧ l.covers 32 0xfe208ee3 ∧
    l.operands 32 0xfe208ee3 = ⟨none, some 1, some 2, some (-4)⟩ :=
  ⟨_, rfl, by simp [Listed.covers, cut, allFixed, Piece.width, Piece.fixed, noSide, fld], by
    simp [Listed.operands, cut, pick, gather, Piece.width, Piece.asRd, Piece.asRs1, Piece.asRs2, Piece.asImm,
      fld, sext]⟩

example : ∃ l, listing16 .Rv64 (.C .LD) = some l ∧ l.covers 16 0x6588 ∧
    l.operands 16 0x6588 = ⟨some 10, some 11, none, some 8⟩ :=
  ⟨_, rfl, by simp [Listed.covers, cut, allFixed, Piece.width, Piece.fixed, noSide, fld], by
    simp [Listed.operands, cut, pick, gather, Piece.width, Piece.asRd, Piece.asRs1, Piece.asRs2, Piece.asImm,
      fld]⟩

/-! ## C63 -/

/-- C63.  Every well-formed value is recovered by the decoder from the word assembled by its row. -/
theorem C63_assemble32 (isa : Isa) (i : Instruction) (h : WF32 isa i) :
    ∃ l, listing32 isa i.opc = some l ∧ l.assemble 32 i < 2 ^ 32 ∧
      U32.decode (BitVec.ofNat 32 (l.assemble 32 i)) isa = .ok i := by
  obtain ⟨-, h2, -⟩ := asm32_official isa i h
  obtain ⟨l, hl, -⟩ := (covers_iff_official32 isa i.opc (asm32 i)).2 h2
  refine ⟨l, hl, ?_⟩
  rw [assemble_asm32 isa i l h hl]
  exact C28_encode_decode isa i h

/-- C63, compressed instructions. -/
theorem C63_assemble16 (isa : Isa) (i : Instruction) (h : WF16 isa i) :
    ∃ l, listing16 isa i.opc = some l ∧ l.assemble 16 i < 2 ^ 16 ∧
      U16.decode (BitVec.ofNat 16 (l.assemble 16 i)) isa = .ok i := by
  obtain ⟨h1, h2, -⟩ := asm16_official isa i h
  obtain ⟨l, hl, -⟩ := (covers_iff_official16 isa i.opc (asm16 i) h1).2 h2
  refine ⟨l, hl, ?_⟩
  rw [assemble_asm16 isa i l h hl]
  exact C30_encode_decode isa i h

/-- C63.  Assembling the decoded value of a listed word by its row gives the word back, where the row has no
free bits or these are zero. -/
theorem C63_reassemble32 (w : BitVec 32) (isa : Isa) (i : Instruction) (l : Listed)
    (h : U32.decode w isa = .ok i) (hl : listing32 isa i.opc = some l) (hc : l.covers 32 w.toNat)
    (hf : ∀ p ∈ cut l.pieces 32 w.toNat, (∃ n, p.1 = .free n) → p.2 = 0) :
    l.assemble 32 i = w.toNat := by
  have ho := (covers_iff_official32 isa i.opc w.toNat).1 ⟨l, hl, hc⟩
  rw [assemble_asm32 isa i l ((C28_wellformed_iff isa i).2 ⟨w, ho, h⟩) hl]
  refine C29_decode_encode_partial w isa i h ho ?_
  rintro (hs | hs)
  all_goals
    rw [hs] at hl
    cases isa
    all_goals simp only [listing32, on, Option.some.injEq, reduceCtorEq] at hl
    all_goals subst hl
    all_goals exact hf (.free 2, fld w.toNat 26 25) (.tail _ (.head _)) ⟨2, rfl⟩

/-- C63, compressed instructions. -/
theorem C63_reassemble16 (h : BitVec 16) (isa : Isa) (i : Instruction) (l : Listed)
    (hd : U16.decode h isa = .ok i) (hl : listing16 isa i.opc = some l) (hc : l.covers 16 h.toNat) :
    l.assemble 16 i = h.toNat := by
  have ho := (covers_iff_official16 isa i.opc h.toNat h.isLt).1 ⟨l, hl, hc⟩
  rw [assemble_asm16 isa i l ((C30_wellformed_iff isa i).2 ⟨h, ho, hd⟩) hl]
  refine C31_decode_encode_partial h isa i hd ?_
  intro hb
  rw [hb] at ho
  exact ho.2.2.2

example : ∃ l, listing32 .Rv64 (.BaseI .SD) = some l ∧
    l.assemble 32 ⟨.BaseI .SD, none, some 2, some 8, some (-16), .SFormat, false⟩ = 0xfe813823 :=
  ⟨_, rfl, by decide⟩

example : ∃ l, listing16 .Rv32 (.C .ADDI16SP) = some l ∧
    l.assemble 16 ⟨.C .ADDI16SP, some 2, some 2, none, some (-64), .CiFormat, true⟩ = 0x7139 :=
  ⟨_, rfl, by decide⟩

end Raki
