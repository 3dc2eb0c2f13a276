import Verif.Props.Count
import Verif.Props.Errors
/-!
# How many words are rejected, and why

The words that each error is returned for, field by field, and how many there are.
-/

namespace Raki

open Spec

/-- The 32-bit words that an error is returned for. -/
def errorRegion32 (isa : Isa) : DecodingError → Region
  | .InvalidOpcode => [
    cube32 (.notIn [0x03, 0x0f, 0x13, 0x17, 0x1b, 0x23, 0x2f, 0x33, 0x37, 0x3b, 0x63, 0x67, 0x6f, 0x73]) .any .any .any
      (top12 .any),
    cube32 (.isIn [0x0f]) .any (.isIn [2]) .any (top12 (.notIn [4])),
    cube32 (.isIn [0x0f]) (.notIn [0]) (.isIn [2]) .any (top12 (.isIn [4])),
    cube32 (.isIn [0x73]) .any (.isIn [4]) .any (top12 (.notIn [0xce1, 0xce5, 0xcdc]))]
  | .InvalidFunct3 => [
    cube32 (.isIn [0x63]) .any (.isIn [2, 3]) .any (top12 .any),
    cube32 (.isIn [0x03]) .any (.isIn [7]) .any (top12 .any),
    cube32 (.isIn [0x23]) .any (.isIn [4, 5, 6, 7]) .any (top12 .any),
    cube32 (.isIn [0x1b]) .any (.notIn [0, 1, 5]) .any (top12 .any),
    cube32 (.isIn [0x3b]) .any (.notIn [0, 1, 5]) .any (top7 .any (.isIn [0, 0x20])),
    cube32 (.isIn [0x3b]) .any (.isIn [1, 2, 3]) .any (top7 .any (.isIn [1])),
    cube32 (.isIn [0x2f]) .any (.notIn [2, 3]) .any
      (top5 .any (.isIn [0, 1, 2, 3, 4, 8, 9, 0xc, 0x10, 0x14, 0x18, 0x1c]))]
  | .InvalidFunct5 => [cube32 (.isIn [0x73]) .any (.isIn [0]) .any (top7 (.notIn [0, 1]) (.isIn [0]))]
  | .InvalidFunct6 => (match isa with
    | .Rv32 => []
    | .Rv64 => [
      cube32 (.isIn [0x13]) .any (.isIn [1]) .any (top6 (.notIn [0])),
      cube32 (.isIn [0x13]) .any (.isIn [5]) .any (top6 (.notIn [0, 0x10]))])
  | .InvalidFunct7 => (match isa with
    | .Rv32 => [
      cube32 (.isIn [0x13]) .any (.isIn [1]) .any (top7 .any (.notIn [0])),
      cube32 (.isIn [0x13]) .any (.isIn [5]) .any (top7 .any (.notIn [0, 0x20]))]
    | .Rv64 => []) ++ [
    cube32 (.isIn [0x33]) .any (.isIn [0, 5]) .any (top7 .any (.notIn [0, 1, 0x20])),
    cube32 (.isIn [0x1b]) .any (.isIn [5]) .any (top7 .any (.notIn [0, 0x20])),
    cube32 (.isIn [0x73]) (.notIn [0]) (.isIn [0]) .any (top7 .any (.notIn [0, 9])),
    cube32 (.isIn [0x73]) (.isIn [0]) (.isIn [0]) (.notIn [0]) (top7 .any (.notIn [0, 9])),
    cube32 (.isIn [0x73]) (.isIn [0]) (.isIn [0]) (.isIn [0]) (top7 .any (.notIn [0, 8, 9, 0x18])),
    cube32 (.isIn [0x73]) (.isIn [0]) (.isIn [0]) (.isIn [0]) (top7 (.notIn [2, 5]) (.isIn [8])),
    cube32 (.isIn [0x73]) (.isIn [0]) (.isIn [0]) (.isIn [0]) (top7 (.notIn [2]) (.isIn [0x18]))]
  | .UnknownExtension => [
    cube32 (.isIn [0x0f]) .any (.notIn [0, 2]) .any (top12 .any),
    cube32 (.isIn [0x2f]) .any .any .any (top5 .any (.notIn [0, 1, 2, 3, 4, 8, 9, 0xc, 0x10, 0x14, 0x18, 0x1c])),
    cube32 (.isIn [0x3b]) .any .any .any (top7 .any (.notIn [0, 1, 0x20]))]
  | .OnlyRv64Inst => (match isa with
    | .Rv32 => (allOpcodes.filter gated64).flatMap (region32 .Rv64)
    | .Rv64 => [])
  | .IllegalInstruction | .Not16BitInst | .Not32BitInst => []

theorem has_top12 (m d f s t : Slot) (n : Nat) : Cube.has (cube32 m d f s (top12 t)) n = true ↔
    m.has (fld n 6 0) = true ∧ d.has (fld n 11 7) = true ∧ f.has (fld n 14 12) = true ∧ s.has (fld n 19 15) = true ∧
      t.has (fld n 31 20) = true := by
  simp [cube32, top12, Cube.has, fld, Nat.div_div_eq_div_mul]

theorem has_top7 (m d f s r t : Slot) (n : Nat) : Cube.has (cube32 m d f s (top7 r t)) n = true ↔
    m.has (fld n 6 0) = true ∧ d.has (fld n 11 7) = true ∧ f.has (fld n 14 12) = true ∧ s.has (fld n 19 15) = true ∧
      r.has (fld n 24 20) = true ∧ t.has (fld n 31 25) = true := by
  simp [cube32, top7, Cube.has, fld, Nat.div_div_eq_div_mul]

theorem has_top6 (m d f s t : Slot) (n : Nat) : Cube.has (cube32 m d f s (top6 t)) n = true ↔
    m.has (fld n 6 0) = true ∧ d.has (fld n 11 7) = true ∧ f.has (fld n 14 12) = true ∧ s.has (fld n 19 15) = true ∧
      t.has (fld n 31 26) = true := by
  simp [cube32, top6, Cube.has, fld, Slot.has, Nat.div_div_eq_div_mul]

theorem has_top5 (m d f s r t : Slot) (n : Nat) : Cube.has (cube32 m d f s (top5 r t)) n = true ↔
    m.has (fld n 6 0) = true ∧ d.has (fld n 11 7) = true ∧ f.has (fld n 14 12) = true ∧ s.has (fld n 19 15) = true ∧
      r.has (fld n 24 20) = true ∧ t.has (fld n 31 27) = true := by
  simp [cube32, top5, Cube.has, fld, Slot.has, Nat.div_div_eq_div_mul]

theorem isIn_has (cs : List Nat) (x : Nat) : Slot.has (.isIn cs) x = true ↔ x ∈ cs := by simp [Slot.has]

theorem notIn_has (cs : List Nat) (x : Nat) : Slot.has (.notIn cs) x = true ↔ x ∉ cs := by simp [Slot.has]

theorem any_has (x : Nat) : Slot.has .any x = true ↔ True := by simp [Slot.has]

theorem region_nil (n : Nat) : Region.has [] n = true ↔ False := by simp [Region.has]

theorem region_cons (c : Cube) (r : Region) (n : Nat) :
    Region.has (c :: r) n = true ↔ Cube.has c n = true ∨ Region.has r n = true := by simp [Region.has]

/-- The three privileged words, field by field. -/
theorem priv_words (n : Nat) (hn : n < 2 ^ 32) (hm : fld n 6 0 = 0x73) (hf : fld n 14 12 = 0) :
    n ∈ [0x10200073, 0x30200073, 0x10500073] ↔ fld n 11 7 = 0 ∧ fld n 19 15 = 0 ∧
      ((fld n 31 25 = 8 ∧ (fld n 24 20 = 2 ∨ fld n 24 20 = 5)) ∨ (fld n 31 25 = 0x18 ∧ fld n 24 20 = 2)) := by
  simp only [List.mem_cons, List.not_mem_nil, or_false]
  have e : n = fld n 6 0 + 2 ^ 7 * (fld n 11 7 + 2 ^ 5 * (fld n 14 12 + 2 ^ 3 * (fld n 19 15 + 2 ^ 5 *
      (fld n 24 20 + 2 ^ 5 * fld n 31 25)))) := by
    simp only [fld]; omega
  have h1 : fld n 11 7 < 32 := by simp only [fld]; omega
  have h2 : fld n 19 15 < 32 := by simp only [fld]; omega
  have h3 : fld n 24 20 < 32 := by simp only [fld]; omega
  generalize fld n 6 0 = a at *
  generalize fld n 11 7 = b at *
  generalize fld n 14 12 = c at *
  generalize fld n 19 15 = d at *
  generalize fld n 24 20 = x at *
  generalize fld n 31 25 = y at *
  omega

theorem errorRegion32_has (isa : Isa) (n : Nat) (hn : n < 2 ^ 32) (e : DecodingError) :
    Region.has (errorRegion32 isa e) n = true ↔ rejects32 isa n e := by
  cases e
  case OnlyRv64Inst =>
    cases isa
    · have h : Region.has ((allOpcodes.filter gated64).flatMap (region32 .Rv64)) n = true ↔
          ∃ op, gated64 op = true ∧ Region.has (region32 .Rv64 op) n = true := by
        simp only [Region.has, List.any_flatMap, List.any_eq_true, List.mem_filter]
        exact ⟨fun ⟨op, h, h2⟩ => ⟨op, h.2, h2⟩, fun ⟨op, h, h2⟩ => ⟨op, ⟨allOpcodes_mem op, h⟩, h2⟩⟩
      simp only [errorRegion32, rejects32, h, region32_has, true_and]
    · simp [errorRegion32, rejects32, Region.has]
  case InvalidFunct7 =>
    by_cases hp : fld n 6 0 = 0x73 ∧ fld n 14 12 = 0
    · have key := priv_words n hn hp.1 hp.2
      cases isa <;>
        simp only [errorRegion32, rejects32, region_nil, region_cons, List.cons_append, List.nil_append, has_top7,
          isIn_has, notIn_has, any_has, key, hp.1, hp.2] <;> simp <;> grind
    · cases isa <;>
        simp only [errorRegion32, rejects32, region_nil, region_cons, List.cons_append, List.nil_append, has_top7,
          isIn_has, notIn_has, any_has, List.mem_cons, List.not_mem_nil] <;> grind (splits := 20)
  case InvalidFunct3 =>
    have h : fld n 14 12 < 8 := by simp only [fld]; omega
    have h4 : fld n 14 12 ∈ [4, 5, 6, 7] ↔ 4 ≤ fld n 14 12 := by
      simp only [List.mem_cons, List.not_mem_nil, or_false]; omega
    simp only [errorRegion32, rejects32, region_nil, region_cons, has_top12, has_top7, has_top5, isIn_has, notIn_has,
      any_has, h4, true_and, and_true, or_false, List.mem_singleton]
    simp only [and_comm]
  case InvalidOpcode =>
    simp only [errorRegion32, rejects32, region_nil, region_cons, has_top12, isIn_has, notIn_has, any_has, true_and,
      and_true, or_false, List.mem_singleton]
    by_cases h : fld n 31 20 = 4 <;> simp [h]
    by_cases hd : fld n 11 7 = 0 <;> simp [hd]
  all_goals cases isa <;>
    simp only [errorRegion32, rejects32, region_nil, region_cons, has_top12, has_top7, has_top6, has_top5, isIn_has,
      notIn_has, any_has, List.mem_cons, List.not_mem_nil] <;> grind

/-- The halfwords that an error is returned for. -/
def errorRegion16 (isa : Isa) : DecodingError → Region
  | .IllegalInstruction => [[(2, .isIn [0]), (3, .isIn [0]), (2, .isIn [0]), (3, .isIn [0]), (2, .isIn [0]),
      (1, .isIn [0]), (3, .isIn [0])]]
  | .OnlyRv64Inst => (match isa with
    | .Rv32 => [
      [(2, .isIn [0, 2]), (3, .any), (2, .any), (3, .any), (2, .any), (1, .any), (3, .isIn [3, 7])],
      [(2, .isIn [1]), (3, .any), (2, .isIn [0, 1]), (3, .any), (2, .isIn [3]), (1, .isIn [1]), (3, .isIn [4])]]
    | .Rv64 => [])
  | .InvalidOpcode => [
    [(2, .isIn [3]), (3, .any), (2, .any), (3, .any), (2, .any), (1, .any), (3, .any)],
    [(2, .isIn [0]), (3, .any), (2, .any), (3, .any), (2, .any), (1, .any), (3, .isIn [1, 4, 5])],
    [(2, .isIn [2]), (3, .any), (2, .any), (3, .any), (2, .any), (1, .any), (3, .isIn [1, 5])],
    [(2, .isIn [1]), (3, .any), (2, .isIn [2, 3]), (3, .any), (2, .isIn [3]), (1, .isIn [1]), (3, .isIn [4])]]
  | _ => []

theorem has_half (q a b c d e f : Slot) (n : Nat) :
    Cube.has [(2, q), (3, a), (2, b), (3, c), (2, d), (1, e), (3, f)] n = true ↔
      q.has (fld n 1 0) = true ∧ a.has (fld n 4 2) = true ∧ b.has (fld n 6 5) = true ∧ c.has (fld n 9 7) = true ∧
      d.has (fld n 11 10) = true ∧ e.has (fld n 12 12) = true ∧ f.has (fld n 15 13) = true := by
  simp [Cube.has, fld, Nat.div_div_eq_div_mul]

theorem errorRegion16_has (isa : Isa) (n : Nat) (hn : n < 2 ^ 16) (e : DecodingError) :
    Region.has (errorRegion16 isa e) n = true ↔ rejects16 isa n e := by
  cases e
  case IllegalInstruction =>
    simp only [errorRegion16, rejects16, region_nil, region_cons, has_half, isIn_has, List.mem_cons, List.not_mem_nil,
      or_false, fld]
    omega
  case OnlyRv64Inst =>
    have h : fld n 6 5 < 4 := by simp only [fld]; omega
    cases isa <;>
      simp only [errorRegion16, rejects16, region_nil, region_cons, has_half, isIn_has, any_has, List.mem_cons,
        List.not_mem_nil, quad] <;> grind (splits := 20)
  case InvalidOpcode =>
    have h : fld n 6 5 < 4 := by simp only [fld]; omega
    simp only [errorRegion16, rejects16, region_nil, region_cons, has_half, isIn_has, any_has, List.mem_cons,
      List.not_mem_nil, quad]
    grind (splits := 20)
  all_goals simp [errorRegion16, rejects16, region_nil]

/-- The error that a 32-bit word is rejected with. -/
def errorOf32 (isa : Isa) (n : Nat) : Option DecodingError :=
  match U32.decode (BitVec.ofNat 32 n) isa with
  | .err e => some e
  | _ => none

/-- The error that a halfword is rejected with. -/
def errorOf16 (isa : Isa) (n : Nat) : Option DecodingError :=
  match U16.decode (BitVec.ofNat 16 n) isa with
  | .err e => some e
  | _ => none

theorem errorOf32_iff {isa : Isa} {n : Nat} (hn : n < 2 ^ 32) {e : DecodingError} :
    errorOf32 isa n = some e ↔ rejects32 isa n e := by
  have h := C23_errors32_exact (BitVec.ofNat 32 n) isa e
  rw [BitVec.toNat_ofNat, Nat.mod_eq_of_lt hn] at h
  rw [← h, errorOf32]
  cases U32.decode (BitVec.ofNat 32 n) isa <;> simp

theorem errorOf16_iff {isa : Isa} {n : Nat} (hn : n < 2 ^ 16) {e : DecodingError} :
    errorOf16 isa n = some e ↔ rejects16 isa n e := by
  have h := C24_errors16_exact (BitVec.ofNat 16 n) isa e
  rw [BitVec.toNat_ofNat, Nat.mod_eq_of_lt hn] at h
  rw [← h, errorOf16]
  cases U16.decode (BitVec.ofNat 16 n) isa <;> simp

/-- All errors. -/
def allErrors : List DecodingError :=
  [.Not16BitInst, .Not32BitInst, .InvalidFunct3, .InvalidFunct5, .InvalidFunct6, .InvalidFunct7, .InvalidOpcode,
    .UnknownExtension, .IllegalInstruction, .OnlyRv64Inst]

theorem allErrors_mem (e : DecodingError) : e ∈ allErrors := by cases e <;> decide

/-- The number of 32-bit words rejected with each error. -/
def errors32 : Isa → DecodingError → Nat
  | _, .InvalidOpcode => 3833590752
  | _, .InvalidFunct3 => 60194816
  | _, .InvalidFunct5 => 30720
  | .Rv64, .InvalidFunct6 => 8192000
  | .Rv32, .InvalidFunct7 => 24739837
  | .Rv64, .InvalidFunct7 => 16449533
  | _, .UnknownExtension => 78905344
  | .Rv32, .OnlyRv64Inst => 22839296
  | _, _ => 0

/-- The number of halfwords rejected with each error. -/
def errors16 : Isa → DecodingError → Nat
  | _, .InvalidOpcode => 26752
  | .Rv32, .OnlyRv64Inst => 8320
  | _, .IllegalInstruction => 1
  | _, _ => 0

theorem errors_sizes (isa : Isa) (e : DecodingError) :
    ((errorRegion32 isa e).ok 32 = true ∧ (errorRegion32 isa e).size = errors32 isa e) ∧
    (errorRegion16 isa e).ok 16 = true ∧ (errorRegion16 isa e).size = errors16 isa e := by
  cases isa <;> cases e <;> decide +kernel

/-- C96.  For every error, how many of the 2^32 words and of the 2^16 halfwords are rejected with it. -/
theorem C96_errors (isa : Isa) (e : DecodingError) :
    countBelow (2 ^ 32) (fun n => decide (errorOf32 isa n = some e)) = errors32 isa e ∧
    countBelow (2 ^ 16) (fun n => decide (errorOf16 isa n = some e)) = errors16 isa e := by
  obtain ⟨⟨h1, h2⟩, h3, h4⟩ := errors_sizes isa e
  rw [← h2, ← h4, ← region_count _ h1, ← region_count _ h3]
  constructor
  · refine countBelow_congr fun n hn => ?_
    rw [Bool.eq_iff_iff, decide_eq_true_iff, errorOf32_iff hn, errorRegion32_has _ _ hn]
  · refine countBelow_congr fun n hn => ?_
    rw [Bool.eq_iff_iff, decide_eq_true_iff, errorOf16_iff hn, errorRegion16_has _ _ hn]

/-- C96.  How many words are rejected. -/
theorem C96_rejected :
    countBelow (2 ^ 32) (fun n => (errorOf32 .Rv32 n).isSome) = 4020300765 ∧
    countBelow (2 ^ 32) (fun n => (errorOf32 .Rv64 n).isSome) = 3997363165 ∧
    countBelow (2 ^ 16) (fun n => (errorOf16 .Rv32 n).isSome) = 35073 ∧
    countBelow (2 ^ 16) (fun n => (errorOf16 .Rv64 n).isSome) = 26753 := by
  refine ⟨?_, ?_, ?_, ?_⟩
  all_goals rw [countBelow_sum _ _ allErrors (by decide) fun _ e _ => allErrors_mem e]
  · simp only [(C96_errors ..).1]; decide +kernel
  · simp only [(C96_errors ..).1]; decide +kernel
  · simp only [(C96_errors ..).2]; decide +kernel
  · simp only [(C96_errors ..).2]; decide +kernel

/-- C96.  The words accepted as some opcode and the words rejected with some error are all words: the numbers tabulated
for opcodes and errors add up. -/
theorem C96_total (isa : Isa) :
    (allOpcodes.map (words32 isa)).sum + (allErrors.map (errors32 isa)).sum = 2 ^ 32 ∧
    (allOpcodes.map (words16 isa)).sum + (allErrors.map (errors16 isa)).sum = 2 ^ 16 := by
  cases isa <;> decide +kernel

theorem accepted32 (isa : Isa) (n : Nat) : (opcodeOf32 isa n).isSome = !(errorOf32 isa n).isSome := by
  have h := decode32_no_panic (BitVec.ofNat 32 n) isa
  rw [opcodeOf32, errorOf32]
  cases e : U32.decode (BitVec.ofNat 32 n) isa <;> simp_all

theorem accepted16 (isa : Isa) (n : Nat) : (opcodeOf16 isa n).isSome = !(errorOf16 isa n).isSome := by
  have h := decode16_no_panic (BitVec.ofNat 16 n) isa
  rw [opcodeOf16, errorOf16]
  cases e : U16.decode (BitVec.ofNat 16 n) isa <;> simp_all

/-- The errors that do not depend on the instruction set. -/
theorem same_error {n : Nat} {e : DecodingError} (h6 : e ≠ .InvalidFunct6) (h7 : e ≠ .InvalidFunct7)
    (ho : e ≠ .OnlyRv64Inst) : rejects32 .Rv32 n e ↔ rejects32 .Rv64 n e := by
  cases e <;> first | exact Iff.rfl | contradiction

/-- The words that RV64 accepts among those that RV32 rejects with each error. -/
def lifted32 : DecodingError → Nat
  | .OnlyRv64Inst => 22839296
  | .InvalidFunct7 => 98304
  | _ => 0

/-- The halfwords, likewise. -/
def lifted16 : DecodingError → Nat
  | .OnlyRv64Inst => 8320
  | _ => 0

theorem funct7_of_64 {n : Nat} (h : rejects32 .Rv64 n .InvalidFunct6 ∨ rejects32 .Rv64 n .InvalidFunct7) :
    rejects32 .Rv32 n .InvalidFunct7 := by
  have h6 : fld n 31 26 = fld n 31 25 / 2 := by simp only [fld]; omega
  simp only [rejects32, h6, List.mem_cons, List.not_mem_nil, or_false] at h ⊢
  rcases h with ⟨-, h1, h2⟩ | h
  · refine .inl ⟨trivial, h1, ?_⟩
    omega
  · exact .inr (h.resolve_left fun h => nomatch h.1)

theorem lifted32_count (e : DecodingError) :
    countBelow (2 ^ 32) (fun n => decide (errorOf32 .Rv32 n = some e) && (opcodeOf32 .Rv64 n).isSome) =
      lifted32 e := by
  by_cases ho : e = .OnlyRv64Inst
  · subst ho
    refine Eq.trans (countBelow_congr fun n hn => ?_) (C96_errors .Rv32 .OnlyRv64Inst).1
    rw [Bool.and_eq_left_iff_imp]
    intro h
    obtain ⟨-, op, -, h⟩ := (errorOf32_iff hn).1 (of_decide_eq_true h)
    rw [(opcodeOf32_iff hn).2 h]
    rfl
  by_cases h7 : e = .InvalidFunct7
  · subst h7
    have key : countBelow (2 ^ 32) (fun n => decide (errorOf32 .Rv64 n = some .InvalidFunct6) ||
        decide (errorOf32 .Rv64 n = some .InvalidFunct7)) = 8192000 + 16449533 := by
      rw [countBelow_or, (C96_errors ..).1, (C96_errors ..).1]
      · rfl
      · intro n h1 h2
        have := (of_decide_eq_true h1).symm.trans (of_decide_eq_true h2)
        cases this
    have sub := countBelow_diff (n := 2 ^ 32) (p := fun n => decide (errorOf32 .Rv32 n = some .InvalidFunct7))
      (q := fun n => decide (errorOf32 .Rv64 n = some .InvalidFunct6) ||
        decide (errorOf32 .Rv64 n = some .InvalidFunct7)) (.inr fun n hn h => by
          rw [Bool.or_eq_true, decide_eq_true_iff, decide_eq_true_iff, errorOf32_iff hn, errorOf32_iff hn] at h
          rw [decide_eq_true_iff, errorOf32_iff hn]
          exact funct7_of_64 h)
    rw [key, (C96_errors ..).1] at sub
    refine Eq.trans (countBelow_congr fun n hn => ?_) sub
    rw [accepted32]
    cases h : decide (errorOf32 .Rv32 n = some .InvalidFunct7)
    · rfl
    · have h := of_decide_eq_true h
      rw [Bool.true_and, Bool.true_and]
      refine congrArg (! ·) ?_
      cases h' : errorOf32 .Rv64 n with
      | none => rfl
      | some e' =>
        by_cases h6 : e' = .InvalidFunct6
        · subst h6; rfl
        by_cases h7 : e' = .InvalidFunct7
        · subst h7; rfl
        by_cases ho : e' = .OnlyRv64Inst
        · subst ho
          nomatch ((errorOf32_iff hn).1 h').1
        · have := (errorOf32_iff hn).2 ((same_error h6 h7 ho).2 ((errorOf32_iff hn).1 h'))
          exact absurd (Option.some.inj (this.symm.trans h)) h7
  · have hz : lifted32 e = 0 := by cases e <;> first | rfl | contradiction
    rw [hz]
    refine countBelow_zero fun n hn => ?_
    rw [accepted32]
    by_cases h : errorOf32 .Rv32 n = some e
    · have h6 : e ≠ .InvalidFunct6 := by
        rintro rfl
        nomatch ((errorOf32_iff hn).1 h).1
      rw [(errorOf32_iff hn).2 ((same_error h6 h7 ho).1 ((errorOf32_iff hn).1 h))]
      simp
    · simp [h]

theorem lifted16_count (e : DecodingError) :
    countBelow (2 ^ 16) (fun n => decide (errorOf16 .Rv32 n = some e) && (opcodeOf16 .Rv64 n).isSome) =
      lifted16 e := by
  by_cases ho : e = .OnlyRv64Inst
  · subst ho
    refine Eq.trans (countBelow_congr fun n hn => ?_) (C96_errors .Rv32 .OnlyRv64Inst).2
    rw [Bool.and_eq_left_iff_imp, accepted16]
    intro h
    have h := (errorOf16_iff hn).1 (of_decide_eq_true h)
    cases h' : errorOf16 .Rv64 n with
    | none => rfl
    | some e' =>
      have h' := (errorOf16_iff hn).1 h'
      have h2 : e' ≠ .OnlyRv64Inst := by rintro rfl; nomatch h'.1
      have h3 : rejects16 .Rv32 n e' := by cases e' <;> first | exact h' | contradiction
      exact absurd (rejects16_unique _ _ _ _ h3 h) h2
  · have hz : lifted16 e = 0 := by cases e <;> first | rfl | contradiction
    rw [hz]
    refine countBelow_zero fun n hn => ?_
    rw [accepted16]
    by_cases h : errorOf16 .Rv32 n = some e
    · have h3 : rejects16 .Rv64 n e := by
        have h := (errorOf16_iff hn).1 h
        cases e <;> first | exact h | contradiction
      rw [(errorOf16_iff hn).2 h3]
      simp
    · simp [h]

/-- C96.  How many of the words that RV32 rejects are instructions of RV64, for each error of RV32: those rejected with
`OnlyRv64Inst`, and 98304 shifts by 32 or more, which are rejected with `InvalidFunct7`. -/
theorem C96_only (e : DecodingError) :
    countBelow (2 ^ 32) (fun n => decide (errorOf32 .Rv32 n = some e) && (opcodeOf32 .Rv64 n).isSome) = lifted32 e ∧
    countBelow (2 ^ 16) (fun n => decide (errorOf16 .Rv32 n = some e) && (opcodeOf16 .Rv64 n).isSome) = lifted16 e :=
  ⟨lifted32_count e, lifted16_count e⟩

/-- C96.  No word that RV32 accepts is rejected by RV64. -/
theorem C96_kept :
    countBelow (2 ^ 32) (fun n => (opcodeOf32 .Rv32 n).isSome && (errorOf32 .Rv64 n).isSome) = 0 ∧
    countBelow (2 ^ 16) (fun n => (opcodeOf16 .Rv32 n).isSome && (errorOf16 .Rv64 n).isSome) = 0 := by
  constructor
  · refine countBelow_zero fun n hn => ?_
    rw [accepted32]
    cases h : errorOf32 .Rv64 n with
    | none => simp
    | some e =>
      have h := (errorOf32_iff hn).1 h
      have : ∃ e', errorOf32 .Rv32 n = some e' := by
        by_cases h6 : e = .InvalidFunct6
        · exact ⟨_, (errorOf32_iff hn).2 (funct7_of_64 (.inl (h6 ▸ h)))⟩
        by_cases h7 : e = .InvalidFunct7
        · exact ⟨_, (errorOf32_iff hn).2 (funct7_of_64 (.inr (h7 ▸ h)))⟩
        by_cases ho : e = .OnlyRv64Inst
        · subst ho; nomatch h.1
        · exact ⟨_, (errorOf32_iff hn).2 ((same_error h6 h7 ho).2 h)⟩
      obtain ⟨e', h'⟩ := this
      simp [h']
  · refine countBelow_zero fun n hn => ?_
    rw [accepted16]
    cases h : errorOf16 .Rv64 n with
    | none => simp
    | some e =>
      have h := (errorOf16_iff hn).1 h
      have h3 : rejects16 .Rv32 n e := by
        cases e <;> first | exact h | nomatch h.1
      rw [(errorOf16_iff hn).2 h3]
      simp

/-- Each table has a non-zero line that a word shows: a word whose major opcode is not used, a shift with a wrong
`funct7`, a double-word load on RV32 and the halfword zero. -/
example : errorOf32 .Rv32 0xffffffff = some .InvalidOpcode ∧ errorOf32 .Rv32 0x02001013 = some .InvalidFunct7 ∧
    errorOf32 .Rv32 0x00003003 = some .OnlyRv64Inst ∧ errorOf16 .Rv64 0 = some .IllegalInstruction := by
  decide +kernel

end Raki
