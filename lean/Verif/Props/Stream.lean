import Verif.Model.Lib
import Verif.Props.Total
import Verif.Props.Errors
import Verif.Props.RoundTrip32
import Verif.Props.RoundTrip16
/-!
# Linear sweep over a program (C40, C46, C47)

Programs are lists of halfwords of any length.  The sweep is the loop a user of the crate writes: look
at the low two bits of the next halfword, take one or two halfwords accordingly and convert them with
`Instruction::try_from`.  The loop is not code of the crate; each of its steps is.
-/

namespace Raki

open Spec

/-- The halfwords of an instruction in memory order (low half first). -/
def halfwords (i : Instruction) : List Nat :=
  if i.isCompressed then [asm16 i] else [asm32 i % 2 ^ 16, asm32 i / 2 ^ 16]

/-- A program in memory. -/
def layout (p : List Instruction) : List Nat := p.flatMap halfwords

/-- The sweep: the instructions converted, and a first half at the very end whose second half is
missing, if there is one.  Stops at the first error. -/
def sweep : List Nat → RustM (List Instruction × List Nat)
  | [] => .ok ([], [])
  | [h] =>
      if h % 4 = 3 then .ok ([], [h])
      else (try_from h).bind fun i => .ok ([i], [])
  | h :: l :: rest =>
      if h % 4 = 3 then
        (try_from (h + l * 2 ^ 16)).bind fun i => (sweep rest).bind fun r => .ok (i :: r.1, r.2)
      else
        (try_from h).bind fun i => (sweep (l :: rest)).bind fun r => .ok (i :: r.1, r.2)

/-- Well-formed RV64 instruction values, of either width. -/
def WF64 (i : Instruction) : Prop := WF32 .Rv64 i ∨ WF16 .Rv64 i

theorem sweep_half (h : Nat) (rest : List Nat) (h3 : h % 4 ≠ 3) :
    sweep (h :: rest) =
      (try_from h).bind fun i => (sweep rest).bind fun r => .ok (i :: r.1, r.2) := by
  cases rest with
  | nil =>
      simp only [sweep, if_neg h3]
      cases try_from h <;> rfl
  | cons l rest => rw [sweep, if_neg h3]

theorem sweep_word (h l : Nat) (rest : List Nat) (h3 : h % 4 = 3) :
    sweep (h :: l :: rest) =
      (try_from (h + l * 2 ^ 16)).bind fun i => (sweep rest).bind fun r => .ok (i :: r.1, r.2) := by
  rw [sweep, if_pos h3]

theorem decode32_low (w : BitVec 32) (isa : Isa) (i : Instruction) (h : U32.decode w isa = .ok i) :
    w.toNat % 4 = 3 := by
  refine Classical.byContradiction fun hn => ?_
  rw [C21_low_bits_32 w isa hn] at h; cases h

theorem decode16_low (w : BitVec 16) (isa : Isa) (i : Instruction) (h : U16.decode w isa = .ok i) :
    w.toNat % 4 ≠ 3 := by
  intro hn
  rw [C21_low_bits_16 w isa hn] at h; cases h

/-- One instruction in front of anything. -/
theorem sweep_cons (i : Instruction) (hi : WF64 i) (rest : List Nat) :
    sweep (halfwords i ++ rest) = (sweep rest).bind fun r => .ok (i :: r.1, r.2) := by
  rcases hi with hi | hi
  · obtain ⟨h1, h2⟩ := C28_encode_decode .Rv64 i hi
    have h3 := decode32_low _ _ _ h2
    rw [toNat_ofNat32 _ h1] at h3
    have hc : i.isCompressed = false := hi.2.2.1
    have hcat : asm32 i % 2 ^ 16 + asm32 i / 2 ^ 16 * 2 ^ 16 = asm32 i := by omega
    simp only [halfwords, hc, Bool.false_eq_true, if_false, List.cons_append, List.nil_append]
    rw [sweep_word _ _ _ (by omega), hcat, C03_try_from_32 _ h3 h1, h2]
    rfl
  · obtain ⟨h1, h2⟩ := C30_encode_decode .Rv64 i hi
    have h3 := decode16_low _ _ _ h2
    rw [toNat_ofNat16 _ h1] at h3
    have hc : i.isCompressed = true := hi.2.1
    simp only [halfwords, hc, if_true, List.cons_append, List.nil_append]
    rw [sweep_half _ _ h3, C03_try_from_16 _ h3 h1, h2]
    rfl

/-- C40, with arbitrary halfwords behind the program: the sweep returns the program and carries on
exactly at the end of it. -/
theorem C40_program_prefix (p : List Instruction) (hp : ∀ i ∈ p, WF64 i) (rest : List Nat) :
    sweep (layout p ++ rest) = (sweep rest).bind fun r => .ok (p ++ r.1, r.2) := by
  induction p with
  | nil => simp only [layout, List.flatMap_nil, List.nil_append]; cases sweep rest <;> rfl
  | cons i p ih =>
      have e : layout (i :: p) ++ rest = halfwords i ++ (layout p ++ rest) := by
        simp [layout]
      rw [e, sweep_cons i (hp i (by simp)), ih fun j hj => hp j (by simp [hj])]
      cases sweep rest <;> rfl

/-- C40.  A program of well-formed instructions of both widths, of any length, is read back exactly. -/
theorem C40_program (p : List Instruction) (hp : ∀ i ∈ p, WF64 i) :
    sweep (layout p) = .ok (p, []) := by
  have h := C40_program_prefix p hp []
  rw [List.append_nil] at h
  rw [h]
  show RustM.ok (p ++ [], []) = _
  rw [List.append_nil]

/-- C40.  Hence a memory image has at most one reading as a program. -/
theorem C40_layout_injective (p q : List Instruction) (hp : ∀ i ∈ p, WF64 i) (hq : ∀ i ∈ q, WF64 i)
    (h : layout p = layout q) : p = q := by
  have hp' := C40_program p hp
  rw [h, C40_program q hq] at hp'
  injection hp' with hp'
  injection hp' with hp' _
  exact hp'.symm

/-- A program with both widths: `addi x1, x0, 5; c.beqz x8, -6; ecall`. -/
def sampleProgram : List Instruction :=
  [⟨.BaseI .ADDI, some 1, some 0, none, some 5, .IFormat, false⟩,
   ⟨.C .BEQZ, none, some 8, none, some (-6), .CbFormat, true⟩,
   ⟨.BaseI .ECALL, none, none, none, none, .NoOperand, false⟩]

example : layout sampleProgram = [0x0093, 0x0050, 0xdc6d, 0x0073, 0x0000] := by decide

example : ∀ i ∈ sampleProgram, WF64 i := by
  intro i hi
  simp only [sampleProgram, List.mem_cons, List.not_mem_nil, or_false] at hi
  rcases hi with rfl | rfl | rfl
  · exact .inl ((C28_wellformed_iff _ _).2 ⟨0x00500093, by simp [official32, existsIn, gated64, row32, fixed32, fld], rfl⟩)
  · exact .inr ((C30_wellformed_iff _ _).2 ⟨0xdc6d, by simp [official16, quad, fld], rfl⟩)
  · exact .inl ((C28_wellformed_iff _ _).2 ⟨0x00000073, by simp [official32, existsIn, gated64, row32, fixed32, fld], rfl⟩)

/-! ## Arbitrary memory -/

/-- `Reads hs p t`: reading the memory `hs` as consecutive RV64 instructions gives `p` and leaves `t`. -/
inductive Reads : List Nat → List Instruction → List Nat → Prop
  | done (hs : List Nat) : Reads hs [] hs
  | half (h : Nat) (rest : List Nat) (i : Instruction) (p : List Instruction) (t : List Nat) :
      h % 4 ≠ 3 → U16.decode (BitVec.ofNat 16 h) .Rv64 = .ok i → Reads rest p t →
      Reads (h :: rest) (i :: p) t
  | word (h l : Nat) (rest : List Nat) (i : Instruction) (p : List Instruction) (t : List Nat) :
      h % 4 = 3 → U32.decode (BitVec.ofNat 32 (h + l * 2 ^ 16)) .Rv64 = .ok i → Reads rest p t →
      Reads (h :: l :: rest) (i :: p) t

/-- The instruction at the head of the memory is refused with the error. -/
def fails (hs : List Nat) (e : DecodingError) : Prop :=
  match hs with
  | [] => False
  | [h] => h % 4 ≠ 3 ∧ U16.decode (BitVec.ofNat 16 h) .Rv64 = .err e
  | h :: l :: _ =>
      (h % 4 ≠ 3 ∧ U16.decode (BitVec.ofNat 16 h) .Rv64 = .err e) ∨
      (h % 4 = 3 ∧ U32.decode (BitVec.ofNat 32 (h + l * 2 ^ 16)) .Rv64 = .err e)

/-- The memory holds no complete instruction. -/
def exhausted (hs : List Nat) : Prop := hs = [] ∨ ∃ h, hs = [h] ∧ h % 4 = 3

/-- What the sweep did: either it read everything there is to read, or it read some instructions and
then met one that is refused. -/
theorem sweep_spec (hs : List Nat) (hb : ∀ h ∈ hs, h < 2 ^ 16) :
    (∃ p t, sweep hs = .ok (p, t) ∧ Reads hs p t ∧ exhausted t) ∨
      (∃ e p t, sweep hs = .err e ∧ Reads hs p t ∧ fails t e) := by
  induction hs using sweep.induct with
  | case1 => exact .inl ⟨[], [], rfl, .done [], .inl rfl⟩
  | case2 h h3 => exact .inl ⟨[], [h], by rw [sweep, if_pos h3], .done _, .inr ⟨h, rfl, h3⟩⟩
  | case3 h h3 =>
      have hh : h < 2 ^ 16 := hb h (by simp)
      have hne := decode16_no_panic (BitVec.ofNat 16 h) .Rv64
      cases hd : U16.decode (BitVec.ofNat 16 h) .Rv64 with
      | ok i =>
          refine .inl ⟨[i], [], ?_, .half _ _ _ _ _ h3 hd (.done _), .inl rfl⟩
          rw [sweep, if_neg h3, C03_try_from_16 _ h3 hh, hd]; rfl
      | err e =>
          refine .inr ⟨e, [], [h], ?_, .done _, h3, hd⟩
          rw [sweep, if_neg h3, C03_try_from_16 _ h3 hh, hd]; rfl
      | panic => exact absurd hd hne
  | case4 h l rest h3 ih =>
      have hh : h < 2 ^ 16 := hb h (by simp)
      have hl : l < 2 ^ 16 := hb l (by simp)
      have ih := ih fun x hx => hb x (by simp [hx])
      have hne := decode32_no_panic (BitVec.ofNat 32 (h + l * 2 ^ 16)) .Rv64
      rw [sweep_word _ _ _ h3, C03_try_from_32 _ (by omega) (by omega)]
      cases hd : U32.decode (BitVec.ofNat 32 (h + l * 2 ^ 16)) .Rv64 with
      | ok i =>
          rcases ih with ⟨p, t, e1, e2, e3⟩ | ⟨e, p, t, e1, e2, e3⟩
          · exact .inl ⟨i :: p, t, by rw [e1]; rfl, .word _ _ _ _ _ _ h3 hd e2, e3⟩
          · exact .inr ⟨e, i :: p, t, by rw [e1]; rfl, .word _ _ _ _ _ _ h3 hd e2, e3⟩
      | err e => exact .inr ⟨e, [], h :: l :: rest, rfl, .done _, .inr ⟨h3, hd⟩⟩
      | panic => exact absurd hd hne
  | case5 h l rest h3 ih =>
      have hh : h < 2 ^ 16 := hb h (by simp)
      have ih := ih fun x hx => hb x (by simp at hx ⊢; exact .inr hx)
      have hne := decode16_no_panic (BitVec.ofNat 16 h) .Rv64
      rw [sweep_half _ _ h3, C03_try_from_16 _ h3 hh]
      cases hd : U16.decode (BitVec.ofNat 16 h) .Rv64 with
      | ok i =>
          rcases ih with ⟨p, t, e1, e2, e3⟩ | ⟨e, p, t, e1, e2, e3⟩
          · exact .inl ⟨i :: p, t, by rw [e1]; rfl, .half _ _ _ _ _ h3 hd e2, e3⟩
          · exact .inr ⟨e, i :: p, t, by rw [e1]; rfl, .half _ _ _ _ _ h3 hd e2, e3⟩
      | err e => exact .inr ⟨e, [], h :: l :: rest, rfl, .done _, .inl ⟨h3, hd⟩⟩
      | panic => exact absurd hd hne

/-- C46.  The sweep never panics, whatever is in memory. -/
theorem C46_sweep_no_panic (hs : List Nat) (hb : ∀ h ∈ hs, h < 2 ^ 16) : sweep hs ≠ .panic := by
  rcases sweep_spec hs hb with ⟨p, t, h, -⟩ | ⟨e, p, t, h, -⟩ <;> (rw [h]; exact fun h => nomatch h)

theorem reads_end {hs : List Nat} {p : List Instruction} {t : List Nat} (h : Reads hs p t) :
    ∀ q t', Reads hs q t' → (exhausted t ∨ ∃ e, fails t e) → (exhausted t' ∨ ∃ e, fails t' e) →
      p = q ∧ t = t' := by
  induction h with
  | done hs =>
      intro q t' h' hl _
      cases h' with
      | done => exact ⟨rfl, rfl⟩
      | half h rest i q t h3 hd =>
          exfalso
          rcases hl with (hl | ⟨x, hl, hx⟩) | ⟨e, hl⟩
          · cases hl
          · injection hl with hl; omega
          · cases rest with
            | nil => rw [fails, hd] at hl; cases hl.2
            | cons l rest =>
                rcases hl with hl | hl
                · rw [hd] at hl; cases hl.2
                · exact h3 hl.1
      | word h l rest i q t h3 hd =>
          exfalso
          rcases hl with (hl | ⟨x, hl, hx⟩) | ⟨e, hl⟩
          · cases hl
          · injection hl with hl hl'; cases hl'
          · rcases hl with hl | hl
            · exact hl.1 h3
            · rw [hd] at hl; cases hl.2
  | half h rest i p t h3 hd _ ih =>
      intro q t' h' hl hl'
      cases h' with
      | done =>
          exfalso
          rcases hl' with (hl | ⟨x, hl, hx⟩) | ⟨e, hl⟩
          · cases hl
          · injection hl with hl; omega
          · cases rest with
            | nil => rw [fails, hd] at hl; cases hl.2
            | cons l rest =>
                rcases hl with hl | hl
                · rw [hd] at hl; cases hl.2
                · exact h3 hl.1
      | half _ _ i' q _ _ hd' hr =>
          rw [hd] at hd'; cases hd'
          obtain ⟨rfl, rfl⟩ := ih q t' hr hl hl'
          exact ⟨rfl, rfl⟩
      | word _ l _ _ _ _ h3' => exact absurd h3' h3
  | word h l rest i p t h3 hd _ ih =>
      intro q t' h' hl hl'
      cases h' with
      | done =>
          exfalso
          rcases hl' with (hl | ⟨x, hl, hx⟩) | ⟨e, hl⟩
          · cases hl
          · injection hl with hl hl'; cases hl'
          · rcases hl with hl | hl
            · exact hl.1 h3
            · rw [hd] at hl; cases hl.2
      | half _ _ _ _ _ h3' => exact absurd h3 h3'
      | word _ _ _ i' q _ _ hd' hr =>
          rw [hd] at hd'; cases hd'
          obtain ⟨rfl, rfl⟩ := ih q t' hr hl hl'
          exact ⟨rfl, rfl⟩

theorem fails_unique {t : List Nat} {e e' : DecodingError} (h : fails t e) (h' : fails t e') :
    e = e' := by
  rcases t with _ | ⟨a, _ | ⟨b, t⟩⟩
  · exact h.elim
  · have h2 := h.2
    have h2' := h'.2
    rw [h2] at h2'; cases h2'; rfl
  · rcases h with ⟨h, h2⟩ | ⟨h, h2⟩ <;> rcases h' with ⟨h', h2'⟩ | ⟨h', h2'⟩
    · rw [h2] at h2'; cases h2'; rfl
    · exact absurd h' h
    · exact absurd h h'
    · rw [h2] at h2'; cases h2'; rfl

theorem exhausted_not_fails {t : List Nat} {e : DecodingError} (h : exhausted t) : ¬ fails t e := by
  rcases h with rfl | ⟨h, rfl, h3⟩
  · exact id
  · exact fun hf => hf.1 h3

/-- C47.  The sweep succeeds exactly when the memory is a sequence of decodable instructions, possibly
followed by the first half of another, and then returns that sequence. -/
theorem C47_sweep_ok_iff (hs : List Nat) (hb : ∀ h ∈ hs, h < 2 ^ 16) (p : List Instruction)
    (t : List Nat) : sweep hs = .ok (p, t) ↔ Reads hs p t ∧ exhausted t := by
  constructor
  · intro h
    rcases sweep_spec hs hb with ⟨p', t', h', h2, h3⟩ | ⟨e, p', t', h', -⟩
    · rw [h] at h'; cases h'; exact ⟨h2, h3⟩
    · rw [h] at h'; cases h'
  · rintro ⟨h1, h2⟩
    rcases sweep_spec hs hb with ⟨p', t', h', h3, h4⟩ | ⟨e, p', t', h', h3, h4⟩
    · obtain ⟨rfl, rfl⟩ := reads_end h1 p' t' h3 (.inl h2) (.inl h4)
      exact h'
    · obtain ⟨rfl, rfl⟩ := reads_end h1 p' t' h3 (.inl h2) (.inr ⟨e, h4⟩)
      exact absurd h4 (exhausted_not_fails h2)

/-- C47.  The sweep returns an error exactly when, after some decodable instructions, it reaches one
that the decoder refuses with that error. -/
theorem C47_sweep_err_iff (hs : List Nat) (hb : ∀ h ∈ hs, h < 2 ^ 16) (e : DecodingError) :
    sweep hs = .err e ↔ ∃ p t, Reads hs p t ∧ fails t e := by
  constructor
  · intro h
    rcases sweep_spec hs hb with ⟨p', t', h', h2, h3⟩ | ⟨e', p', t', h', h2, h3⟩
    · rw [h] at h'; cases h'
    · rw [h] at h'; cases h'; exact ⟨p', t', h2, h3⟩
  · rintro ⟨p, t, h1, h2⟩
    rcases sweep_spec hs hb with ⟨p', t', h', h3, h4⟩ | ⟨e', p', t', h', h3, h4⟩
    · obtain ⟨rfl, rfl⟩ := reads_end h1 p' t' h3 (.inr ⟨e, h2⟩) (.inl h4)
      exact absurd h2 (exhausted_not_fails h4)
    · obtain ⟨rfl, rfl⟩ := reads_end h1 p' t' h3 (.inr ⟨e, h2⟩) (.inr ⟨e', h4⟩)
      rw [fails_unique h2 h4]; exact h'

theorem reads_compressed {hs : List Nat} {p : List Instruction} {t : List Nat} (h : Reads hs p t) :
    hs.length = (p.map fun i => if i.isCompressed then 1 else 2).sum + t.length := by
  induction h with
  | done => simp
  | half h rest i p t _ hd _ ih =>
      have hc := (C27_metadata16 _ _ _ hd).2.1
      simp only [List.length_cons, List.map_cons, List.sum_cons, hc, if_true, ih]; omega
  | word h l rest i p t _ hd _ ih =>
      have hc := (C27_metadata32 _ _ _ hd).2.1
      simp only [List.length_cons, List.map_cons, List.sum_cons, hc, Bool.false_eq_true, if_false, ih]
      omega

/-- C47.  The widths reported by the instructions account for every halfword of the memory. -/
theorem C47_sweep_length (hs : List Nat) (hb : ∀ h ∈ hs, h < 2 ^ 16) (p : List Instruction)
    (t : List Nat) (h : sweep hs = .ok (p, t)) :
    hs.length = (p.map fun i => if i.isCompressed then 1 else 2).sum + t.length ∧ t.length ≤ 1 := by
  obtain ⟨h1, h2⟩ := (C47_sweep_ok_iff hs hb p t).1 h
  refine ⟨reads_compressed h1, ?_⟩
  rcases h2 with rfl | ⟨_, rfl, -⟩ <;> simp

/-- C47.  Code is position independent: appending memory after a complete program does not change how
the program is read. -/
theorem C47_sweep_append (a b : List Nat) (ha : ∀ h ∈ a, h < 2 ^ 16) (p : List Instruction)
    (h : sweep a = .ok (p, [])) :
    sweep (a ++ b) = (sweep b).bind fun r => .ok (p ++ r.1, r.2) := by
  have hr := ((C47_sweep_ok_iff a ha p []).1 h).1
  clear h
  generalize ht : ([] : List Nat) = t at hr
  induction hr with
  | done => subst ht; simp only [List.nil_append]; cases sweep b <;> rfl
  | half h rest i p t h3 hd _ ih =>
      rw [List.cons_append, sweep_half _ _ h3, C03_try_from_16 _ h3 (ha h (by simp)), hd,
        ih (fun x hx => ha x (by simp [hx])) ht]
      cases sweep b <;> rfl
  | word h l rest i p t h3 hd _ ih =>
      have hh := ha h (by simp)
      have hl := ha l (by simp)
      rw [List.cons_append, List.cons_append, sweep_word _ _ _ h3,
        C03_try_from_32 _ (by omega) (by omega), hd, ih (fun x hx => ha x (by simp [hx])) ht]
      cases sweep b <;> rfl

example : ∃ p, sweep [0x0093, 0x0050, 0xdc6d, 0x0073] = .ok (p, [0x0073]) ∧ p.length = 2 :=
  ⟨_, rfl, rfl⟩
example : sweep [0xdc6d, 0x0000, 0xdc6d] = .err .IllegalInstruction := rfl

end Raki
