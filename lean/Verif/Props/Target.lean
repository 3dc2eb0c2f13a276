import Verif.Props.Source
import Verif.Props.Operands
/-!
# Targets with pointers of other widths (C73)

Register numbers and the argument of the conversion are `usize`, which has 16, 32 or 64 bits.  `Source.castTo`
truncates accordingly.
-/

namespace Raki

open Source

/-- C73.  Running `decode`, the parsers and `Display` gives the same on all targets. -/
theorem C73_targets_agree (m : Mode) (p q : PtrWidth) (d : Nat) (h : 6 ≤ d) (w : BitVec 32) (v : BitVec 16)
    (isa : Isa) (op : OpcodeKind) (i : Instruction) :
    call crate ⟨m, p⟩ d .u32 .decode [emb w, emb isa] = call crate ⟨m, q⟩ d .u32 .decode [emb w, emb isa] ∧
    call crate ⟨m, p⟩ d .u16 .decode [emb v, emb isa] = call crate ⟨m, q⟩ d .u16 .decode [emb v, emb isa] ∧
    call crate ⟨m, p⟩ d .Instruction .fmt [emb i] = call crate ⟨m, q⟩ d .Instruction .fmt [emb i] ∧
    (∀ f ∈ [Id.parse_rd, .parse_rs1, .parse_rs2],
      call crate ⟨m, p⟩ d .u32 f [emb w, emb op] = call crate ⟨m, q⟩ d .u32 f [emb w, emb op] ∧
      call crate ⟨m, p⟩ d .u16 f [emb v, emb op] = call crate ⟨m, q⟩ d .u16 f [emb v, emb op]) ∧
    call crate ⟨m, p⟩ d .u32 .parse_imm [emb w, emb op, emb isa] =
      call crate ⟨m, q⟩ d .u32 .parse_imm [emb w, emb op, emb isa] ∧
    call crate ⟨m, p⟩ d .u16 .parse_imm [emb v, emb op, emb isa] =
      call crate ⟨m, q⟩ d .u16 .parse_imm [emb v, emb op, emb isa] := by
  obtain ⟨h1, h2, -, h4⟩ := C61_builds_agree ⟨m, p⟩ ⟨m, q⟩ d d h h w v 0 isa i
  obtain ⟨-, a1, a2, a3, a4⟩ := C60_parsers32 ⟨m, p⟩ d (by omega) w op isa
  obtain ⟨-, b1, b2, b3, b4⟩ := C60_parsers32 ⟨m, q⟩ d (by omega) w op isa
  obtain ⟨-, c1, c2, c3, c4⟩ := C60_parsers16 ⟨m, p⟩ d (by omega) v op isa
  obtain ⟨-, d1, d2, d3, d4⟩ := C60_parsers16 ⟨m, q⟩ d (by omega) v op isa
  refine ⟨h1, h2, h4, ?_, a4.trans b4.symm, c4.trans d4.symm⟩
  intro f hf
  simp only [List.mem_cons, List.not_mem_nil, or_false] at hf
  rcases hf with rfl | rfl | rfl
  · exact ⟨a1.trans b1.symm, c1.trans d1.symm⟩
  · exact ⟨a2.trans b2.symm, c2.trans d2.symm⟩
  · exact ⟨a3.trans b3.symm, c3.trans d3.symm⟩

/-- C73.  The numbers in a decoded instruction are `usize` values on every target. -/
theorem C73_fits (p : PtrWidth) (i : Instruction) (h : Decoded i) :
    ∀ o ∈ [i.rd, i.rs1, i.rs2], ∀ n, o = some n → n < 2 ^ p.bits := by
  have hp : 2 ^ 16 ≤ 2 ^ p.bits := Nat.pow_le_pow_right (by decide) (by cases p <;> decide)
  have key : (∀ x, i.rd = some x → x < 4096) ∧ (∀ x, i.rs1 = some x → x < 4096) ∧
      (∀ x, i.rs2 = some x → x < 4096) := by
    rcases h with ⟨w, isa, h⟩ | ⟨w, isa, h⟩
    · obtain ⟨h1, h2, h3⟩ := C16_register_range32 w isa i h
      exact ⟨fun x e => by have := h1 x e; omega, fun x e => by have := h2 x e; omega, fun x e => (h3 x e).1⟩
    · obtain ⟨h1, h2, h3, -⟩ := C16_register_range16 w isa i h
      exact ⟨fun x e => by have := h1 x e; omega, fun x e => by have := h2 x e; omega,
        fun x e => by have := h3 x e; omega⟩
  intro o ho n hn
  simp only [List.mem_cons, List.not_mem_nil, or_false] at ho
  rcases ho with rfl | rfl | rfl
  · have := key.1 n hn; omega
  · have := key.2.1 n hn; omega
  · have := key.2.2 n hn; omega

-- a cast that depends on the target
example : castTo .w16 (.u32 0x10005) .usize = .val (.usize 5) ∧
    castTo .w32 (.u32 0x10005) .usize = .val (.usize 0x10005) := ⟨rfl, rfl⟩
-- a CSR number is the widest `usize` in an instruction
example : ∃ i, Decoded i ∧ i.rs2 = some 0xfff := ⟨_, .inl ⟨0xfff59573, .Rv32, rfl⟩, rfl⟩

/-- C73.  On which `usize` values the conversion panics: on none where `usize` has 16 bits, and only for a half
word with further bits set where it has 32. -/
theorem C73_try_from_panics (m : Mode) (p : PtrWidth) (d : Nat) (h : 6 ≤ d) (x : Nat) (hx : x < 2 ^ p.bits) :
    call crate ⟨m, p⟩ d .Instruction .try_from [emb x] = .panic ↔
      match p with
      | .w16 => False
      | .w32 => x % 4 ≠ 3 ∧ 2 ^ 16 ≤ x
      | .w64 => (x % 4 = 3 ∧ 2 ^ 32 ≤ x) ∨ (x % 4 ≠ 3 ∧ 2 ^ 16 ≤ x) := by
  rw [C61_try_from_panics _ d h]
  cases p <;> simp only [PtrWidth.bits, iff_false] at hx ⊢ <;> omega

end Raki
