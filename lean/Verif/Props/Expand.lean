import Verif.Spec.Expand
import Verif.Props.RoundTrip32
import Verif.Props.Operands
/-!
# Compressed instructions and their expansions (C39)
-/

namespace Raki

open Spec

set_option linter.unusedSimpArgs false

theorem expand_wf (h : Nat) (isa : Isa) (op : OpcodeKind) (j : Instruction)
    (ha : accepts16 isa h op) (hj : expand (value16 h op) = some j)
    (hs : ¬ longShift isa (value16 h op)) : WF32 isa j := by
  have b1 := fld_lt h 11 7
  have b2 := fld_lt h 6 2
  have b3 := fld_lt h 9 7
  have b4 := fld_lt h 4 2
  have hm := immRange16_of h op
  revert ha hj hs hm
  rcases op with o | o | o | o | o | o | o | o | o | o
  all_goals cases o
  all_goals intro ha hj hs hm
  all_goals first
    | (cases hj; done)
    | skip
  all_goals
    simp only [expand, value16, Option.some.injEq] at hj
    subst hj
    simp only [imm16, Option.some.injEq, immRange16, forall_eq', reduceCtorEq, false_implies,
      implies_true] at hm
    simp only [longShift, value16, imm16, reduceCtorEq, false_or, or_false, or_self, false_and, and_false,
      Option.some.injEq, exists_eq_left', true_and, not_and, Int.not_le, or_true, true_or] at hs
    refine ⟨?_, by simp [mk32], rfl, _, rfl, rfl, ?_⟩
  all_goals try simp only [mk32, existsIn, gated64]
  all_goals try simp only [accepts16, official16] at ha
  all_goals try simp only [mk32, operands32, isReg, isImm, rd16, rs116, rs216, imm16, regC, immRange32,
    Option.some.injEq, exists_eq_left', Option.map_some, true_and, and_true]
  all_goals first
    | simp; done
    | simp [ha]; done
    | omega
    | skip
  all_goals
    cases isa <;> simp_all <;> omega

/-- C39.  Every decoded compressed instruction has an expansion.  Its operands are those reported, with
these exceptions: `c.jr` and `c.jalr` report a second source x0 that the expansion does not have; the
immediate of `lui` counts units of 4096; the shadow-stack instructions report as `rd` what is a source of
the expansion. -/
theorem C39_same_operands (h : BitVec 16) (isa : Isa) (i : Instruction)
    (hd : U16.decode h isa = .ok i) :
    ∃ j, expand i = some j ∧ j.isCompressed = false ∧
      (∀ x, i.rd = some x → if i.opc = .Zicfiss .C_SSPUSH then j.rs2 = some x
        else if i.opc = .Zicfiss .C_SSPOPCHK then j.rs1 = some x else j.rd = some x) ∧
      (∀ x, i.rs1 = some x → j.rs1 = some x) ∧
      (∀ x, i.rs2 = some x → if i.opc = .C .JR ∨ i.opc = .C .JALR then x = 0 else j.rs2 = some x) ∧
      (∀ z, i.imm = some z → if i.opc = .C .LUI then ∃ u, j.imm = some u ∧ 0 ≤ u ∧ z = 4096 * sext 20 u.toNat
        else j.imm = some z) := by
  have hm := C16_immediate_range16 h isa i
  obtain ⟨ha, hi⟩ := (decode16_ok_iff h isa i).1 hd
  have hc := accepts16_isC _ _ _ ha
  have hz : ∀ z, i.imm = some z → immRange16 i.opc z := fun z hz => hm z hd hz
  clear hm hd
  revert ha hc hz
  rw [hi]
  simp only [value16]
  generalize i.opc = op
  rcases op with o | o | o | o | o | o | o | o | o | o
  all_goals cases o
  all_goals intro ha hc hz
  all_goals first
    | (exfalso; exact hc; done)
    | skip
  all_goals refine ⟨_, rfl, rfl, ?_, ?_, ?_, ?_⟩
  all_goals try simp [mk32, rd16, rs116, rs216, imm16]
  all_goals simp [accepts16, official16] at ha
  case C.ADDI16SP.refine_1 => exact ha.2.symm
  case C.ADDI16SP.refine_2 => exact ha.2.symm
  case C.LUI.refine_4 =>
    have hb := hz _ rfl
    simp only [immRange16] at hb
    refine ⟨by omega, ?_⟩
    simp only [sext]
    split <;> omega
  case C.JR.refine_3 => exact ha.2.2
  case C.JALR.refine_3 => exact ha.2.2.2

/-- C39.  Assembling the expansion of a decoded compressed instruction and decoding the word gives the
expansion back, except exactly for shifts by 32 or more on RV32 (reserved, but accepted by the 16-bit
decoder), whose expansions RV32 cannot encode. -/
theorem C39_expansion_decodes (h : BitVec 16) (isa : Isa) (i j : Instruction)
    (hd : U16.decode h isa = .ok i) (hj : expand i = some j) :
    U32.decode (BitVec.ofNat 32 (asm32 j)) isa = .ok j ↔ ¬ longShift isa i := by
  obtain ⟨ha, hi⟩ := (decode16_ok_iff h isa i).1 hd
  constructor
  · rintro hk ⟨rfl, ho, z, hz, hb⟩
    rcases ho with ho | ho | ho
    all_goals
      simp only [expand, ho, Option.some.injEq] at hj
      obtain ⟨r, hr, h3⟩ := C16_immediate_range32 _ _ j z hk (by rw [← hj]; exact hz)
      rw [← hj] at hr
      simp only [mk32, row32, Option.some.injEq] at hr
      rw [← hr] at h3
      simp only [immRange32] at h3
      omega
  · intro hs
    exact (C28_encode_decode isa j (expand_wf h.toNat isa i.opc j ha (hi ▸ hj) (hi ▸ hs))).2

theorem same_option {α : Type} {a b : Option α} (hp : a.isSome = b.isSome)
    (h : ∀ x y, a = some x → b = some y → x = y) : a = b := by
  cases a <;> cases b
  · rfl
  · cases hp
  · cases hp
  · rw [h _ _ rfl rfl]

/-- C39.  The compressed opcode and the expansion determine the compressed instruction. -/
theorem C39_expansion_injective (h h' : BitVec 16) (isa isa' : Isa) (i i' j : Instruction)
    (hd : U16.decode h isa = .ok i) (hd' : U16.decode h' isa' = .ok i') (ho : i.opc = i'.opc)
    (hj : expand i = some j) (hj' : expand i' = some j) : i = i' := by
  have hp := C17_presence16 h h' isa isa' i i' hd hd' ho
  obtain ⟨k, hk, -, a1, a2, a3, a4⟩ := C39_same_operands h isa i hd
  obtain ⟨k', hk', -, b1, b2, b3, b4⟩ := C39_same_operands h' isa' i' hd'
  rw [hj] at hk
  rw [hj'] at hk'
  cases hk
  cases hk'
  rw [← ho] at b1 b3 b4
  simp only [presence, Prod.mk.injEq] at hp
  obtain ⟨p1, p2, p3, p4⟩ := hp
  have e1 : i.rd = i'.rd := by
    refine same_option p1 fun x y hx hy => ?_
    have h1 := a1 x hx
    have h2 := b1 y hy
    by_cases c1 : i.opc = .Zicfiss .C_SSPUSH
    · rw [if_pos c1] at h1 h2; rw [h1] at h2; injection h2
    · rw [if_neg c1] at h1 h2
      by_cases c2 : i.opc = .Zicfiss .C_SSPOPCHK
      · rw [if_pos c2] at h1 h2; rw [h1] at h2; injection h2
      · rw [if_neg c2] at h1 h2; rw [h1] at h2; injection h2
  have e2 : i.rs1 = i'.rs1 := by
    refine same_option p2 fun x y hx hy => ?_
    have h1 := a2 x hx
    rw [b2 y hy] at h1
    injection h1 with h1
    exact h1.symm
  have e3 : i.rs2 = i'.rs2 := by
    refine same_option p3 fun x y hx hy => ?_
    have h1 := a3 x hx
    have h2 := b3 y hy
    by_cases c : i.opc = .C .JR ∨ i.opc = .C .JALR
    · rw [if_pos c] at h1 h2; rw [h1, h2]
    · rw [if_neg c] at h1 h2; rw [h1] at h2; injection h2
  have e4 : i.imm = i'.imm := by
    refine same_option p4 fun x y hx hy => ?_
    have h1 := a4 x hx
    have h2 := b4 y hy
    by_cases c : i.opc = .C .LUI
    · rw [if_pos c] at h1 h2
      obtain ⟨u, h1, -, h3⟩ := h1
      obtain ⟨v, h2, -, h4⟩ := h2
      rw [h1] at h2
      injection h2 with h2
      rw [h3, h4, h2]
    · rw [if_neg c] at h1 h2; rw [h1] at h2; injection h2
  obtain ⟨-, m1, -, m2⟩ := C27_metadata16 h isa i hd
  obtain ⟨-, n1, -, n2⟩ := C27_metadata16 h' isa' i' hd'
  rw [← ho] at n2
  rcases i with ⟨a, b, c, d, e, f, g⟩
  rcases i' with ⟨a', b', c', d', e', f', g'⟩
  simp only at ho e1 e2 e3 e4 m1 m2 n1 n2
  rw [ho, e1, e2, e3, e4, m1, n1, m2, n2, ho]

theorem not_longShift64 (i : Instruction) : ¬ longShift .Rv64 i := by
  rintro ⟨h, -⟩; cases h

example : ∃ i j, U16.decode 0x6105 .Rv64 = .ok i ∧ expand i = some j ∧ ¬ longShift .Rv64 i ∧
    j = ⟨.BaseI .ADDI, some 2, some 2, none, some 32, .IFormat, false⟩ ∧ asm32 j = 0x02010113 :=
  ⟨_, _, rfl, rfl, not_longShift64 _, rfl, rfl⟩
example : ∃ i j, U16.decode 0x757d .Rv64 = .ok i ∧ expand i = some j ∧ i.imm = some (-4096) ∧
    j = ⟨.BaseI .LUI, some 10, none, none, some 0xfffff, .UFormat, false⟩ :=
  ⟨_, _, rfl, rfl, rfl, rfl⟩
example : ∃ i j, U16.decode 0x1502 .Rv32 = .ok i ∧ expand i = some j ∧ longShift .Rv32 i ∧
    U32.decode (BitVec.ofNat 32 (asm32 j)) .Rv32 = .err .InvalidFunct7 :=
  ⟨_, _, rfl, rfl, ⟨rfl, .inl rfl, 32, rfl, by decide⟩, rfl⟩

end Raki
