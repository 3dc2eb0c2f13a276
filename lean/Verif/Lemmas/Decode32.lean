import Verif.Lemmas.Operand32
import Verif.Lemmas.Accept32
import Verif.Lemmas.Reject32
/-!
# The 32-bit decoder as a whole
-/

namespace Raki

open Spec

theorem decode32_of_opcode (w : BitVec 32) (isa : Isa) (op : OpcodeKind) (r : Row)
    (h : U32.parse_opcode w isa = .ok op) (hr : row32 op = some r) :
    U32.decode w isa = .ok (value32 isa w.toNat op r.fmt) := by
  unfold U32.decode
  rw [h, RustM.bind_ok, parse_rd32_eq w op r hr, RustM.bind_ok, parse_rs132_eq w op r hr,
    RustM.bind_ok, parse_rs232_eq w op r hr, RustM.bind_ok, parse_imm32_eq w isa op r hr,
    RustM.bind_ok, getFormat32_eq op r hr]
  rfl

/-- What `decode` returns, in terms of the specification. -/
theorem decode32_ok_iff (w : BitVec 32) (isa : Isa) (i : Instruction) :
    U32.decode w isa = .ok i ↔
      ∃ r, row32 i.opc = some r ∧ accepts32 isa w.toNat i.opc ∧
        i = value32 isa w.toNat i.opc r.fmt := by
  constructor
  · intro h
    cases hop : U32.parse_opcode w isa with
    | ok op =>
      have ha := (parse_opcode32_ok w isa op).1 hop
      obtain ⟨r, hr⟩ := accepts32_row _ _ _ ha
      rw [decode32_of_opcode w isa op r hop hr] at h
      injection h with h
      subst h
      exact ⟨r, hr, ha, rfl⟩
    | err e => simp [U32.decode, hop] at h
    | panic => simp [U32.decode, hop] at h
  · rintro ⟨r, hr, ha, hi⟩
    rw [decode32_of_opcode w isa i.opc r ((parse_opcode32_ok w isa i.opc).2 ha) hr, ← hi]

theorem decode32_accepts (w : BitVec 32) (isa : Isa) (op : OpcodeKind) :
    (∃ i, U32.decode w isa = .ok i ∧ i.opc = op) ↔ accepts32 isa w.toNat op := by
  constructor
  · rintro ⟨i, h, rfl⟩
    exact ((decode32_ok_iff w isa i).1 h).elim fun r h => h.2.1
  · intro h
    obtain ⟨r, hr⟩ := accepts32_row _ _ _ h
    exact ⟨_, decode32_of_opcode w isa op r ((parse_opcode32_ok w isa op).2 h) hr, rfl⟩

theorem decode32_err_iff (w : BitVec 32) (isa : Isa) (e : DecodingError) :
    U32.decode w isa = .err e ↔ rejects32 isa w.toNat e := by
  rw [← parse_opcode32_err]
  cases hop : U32.parse_opcode w isa with
  | ok op =>
    obtain ⟨r, hr⟩ := accepts32_row _ _ _ ((parse_opcode32_ok w isa op).1 hop)
    rw [decode32_of_opcode w isa op r hop hr]
    simp
  | err e' => simp [U32.decode, hop]
  | panic => simp [U32.decode, hop]

theorem decode32_no_panic (w : BitVec 32) (isa : Isa) : U32.decode w isa ≠ .panic := by
  cases hop : U32.parse_opcode w isa with
  | ok op =>
    obtain ⟨r, hr⟩ := accepts32_row _ _ _ ((parse_opcode32_ok w isa op).1 hop)
    rw [decode32_of_opcode w isa op r hop hr]
    simp
  | err e' => simp [U32.decode, hop]
  | panic => exact absurd hop (parse_opcode32_no_panic w isa)

end Raki
