import Verif.Props.CountPrograms
/-!
# How many memories are the same program on both instruction sets
-/

namespace Raki

open Spec

/-- Both instruction sets decode the halfword, as the same instruction. -/
def same16 (h : Nat) : Bool := (opcodeOf16 .Rv32 h).isSome && decide (opcodeOf16 .Rv32 h ≠ some (.C .JAL))

theorem opcode16_eq {isa : Isa} {h : Nat} {op : OpcodeKind} :
    opcodeOf16 isa h = some op ↔ ∃ i, U16.decode (BitVec.ofNat 16 h) isa = .ok i ∧ i.opc = op := by
  rw [opcodeOf16]
  cases U16.decode (BitVec.ofNat 16 h) isa <;> simp

/-- `c.jal` is `c.addiw` on RV64. -/
theorem jal_on_rv64 {h : BitVec 16} {i : Instruction} (hi : U16.decode h .Rv32 = .ok i) (ho : i.opc = .C .JAL) :
    ∃ j, U16.decode h .Rv64 = .ok j ∧ j.opc = .C .ADDIW := (C20_jal_addiw h).1 ⟨i, hi, ho⟩

theorem same16_iff {h : Nat} : same16 h = true ↔
    ∃ i, U16.decode (BitVec.ofNat 16 h) .Rv32 = .ok i ∧ U16.decode (BitVec.ofNat 16 h) .Rv64 = .ok i := by
  rw [same16, Bool.and_eq_true, decide_eq_true_iff, opcode16_some, Ne, opcode16_eq]
  constructor
  · rintro ⟨⟨i, hi⟩, hn⟩
    exact ⟨i, hi, C20_rv32_then_rv64 _ _ hi fun e => hn ⟨i, hi, e⟩⟩
  · rintro ⟨i, hi, hi'⟩
    refine ⟨⟨i, hi⟩, ?_⟩
    rintro ⟨j, hj, e⟩
    rw [hi] at hj
    cases hj
    obtain ⟨j, hj, e'⟩ := jal_on_rv64 hi e
    rw [hi'] at hj
    cases hj
    rw [e] at e'
    cases e'

theorem same16_count : countBelow (2 ^ 16) same16 = 28415 := by
  have h := countBelow_or (n := 2 ^ 16) (p := same16) (q := fun n => decide (opcodeOf16 .Rv32 n = some (.C .JAL)))
    (by
      intro x h1 h2
      rw [same16, Bool.and_eq_true, decide_eq_true_iff] at h1
      exact h1.2 (of_decide_eq_true h2))
  rw [(C86_opcodes .Rv32 (.C .JAL)).2] at h
  have e : countBelow (2 ^ 16) (fun x => same16 x || decide (opcodeOf16 .Rv32 x = some (.C .JAL))) = 30463 := by
    rw [← C86_accepted.2.2.1]
    refine countBelow_congr fun x _ => ?_
    rw [Bool.eq_iff_iff, Bool.or_eq_true, same16, Bool.and_eq_true, decide_eq_true_iff, decide_eq_true_iff]
    constructor
    · rintro (h | h)
      · exact h.1
      · rw [h]; rfl
    · intro h
      by_cases hj : opcodeOf16 .Rv32 x = some (.C .JAL)
      · exact .inr hj
      · exact .inl ⟨h, hj⟩
  have w : words16 .Rv32 (.C .JAL) = 2048 := by decide
  omega

/-- A memory is the same program on both if its first instruction is the same and what follows is the same program. -/
theorem same_first (hs : List Nat) (hb : ∀ h ∈ hs, h < 2 ^ 16) (hn : hs ≠ []) :
    (∃ p, sweepAt .Rv32 hs = .ok (p, []) ∧ sweepAt .Rv64 hs = .ok (p, [])) ↔
      (∃ h rest, hs = h :: rest ∧ same16 h = true ∧
        ∃ q, sweepAt .Rv32 rest = .ok (q, []) ∧ sweepAt .Rv64 rest = .ok (q, [])) ∨
      ∃ w rest, w < 2 ^ 32 ∧ hs = w % 2 ^ 16 :: w / 2 ^ 16 :: rest ∧ (opcodeOf32 .Rv32 w).isSome = true ∧
        ∃ q, sweepAt .Rv32 rest = .ok (q, []) ∧ sweepAt .Rv64 rest = .ok (q, []) := by
  constructor
  · rintro ⟨p, h1, h2⟩
    rcases (sweepAt_first _ hs hb hn p).1 h1 with
      ⟨h, rest, i, q, rfl, hi, hq, rfl⟩ | ⟨w, rest, i, q, hw, rfl, hi, hq, rfl⟩
    · rcases (sweepAt_first _ _ hb hn _).1 h2 with
        ⟨h', rest', j, q', e, hj, hq', e'⟩ | ⟨w, rest', j, q', hw, e, hj, -, -⟩
      · cases e
        cases e'
        exact .inl ⟨h, rest, rfl, same16_iff.2 ⟨i, hi, hj⟩, q, hq, hq'⟩
      · have k1 := low16 (hb h (by simp)) hi
        have k2 := low32 hw hj
        have k3 := (List.cons.inj e).1
        omega
    · rcases (sweepAt_first _ _ hb hn _).1 h2 with
        ⟨h', rest', j, q', e, hj, -, -⟩ | ⟨w', rest', j, q', hw', e, hj, hq', e'⟩
      · have k1 := low32 hw hi
        have k3 := (List.cons.inj e).1
        have k2 := low16 (by omega) hj
        omega
      · simp only [List.cons.injEq] at e e'
        obtain ⟨-, -, rfl⟩ := e
        obtain ⟨-, rfl⟩ := e'
        exact .inr ⟨w, rest, hw, rfl, opcode32_some.2 ⟨i, hi⟩, q, hq, hq'⟩
  · rintro (⟨h, rest, rfl, hh, q, h1, h2⟩ | ⟨w, rest, hw, rfl, hh, q, h1, h2⟩)
    · obtain ⟨i, hi, hi'⟩ := same16_iff.1 hh
      exact ⟨i :: q, (sweepAt_first _ _ hb hn _).2 (.inl ⟨h, rest, i, q, rfl, hi, h1, rfl⟩),
        (sweepAt_first _ _ hb hn _).2 (.inl ⟨h, rest, i, q, rfl, hi', h2, rfl⟩)⟩
    · obtain ⟨i, hi⟩ := opcode32_some.1 hh
      exact ⟨i :: q, (sweepAt_first _ _ hb hn _).2 (.inr ⟨w, rest, i, q, hw, rfl, hi, h1, rfl⟩),
        (sweepAt_first _ _ hb hn _).2 (.inr ⟨w, rest, i, q, hw, rfl, C19_rv32_then_rv64 _ _ hi, h2, rfl⟩)⟩

/-- C100.  Every program for RV32 is one for RV64 of as many instructions, with the same one in every place but those
of `c.jal`, where there is a `c.addiw`. -/
theorem C100_both (hs : List Nat) (p : List Instruction) (t : List Nat) (h : sweepAt .Rv32 hs = .ok (p, t)) :
    ∃ q, sweepAt .Rv64 hs = .ok (q, t) ∧ p.length = q.length ∧
      ∀ ij ∈ p.zip q, (ij.1.opc ≠ .C .JAL → ij.1 = ij.2) ∧ (ij.1.opc = .C .JAL → ij.2.opc = .C .ADDIW) := by
  have half (x : Nat) (i : Instruction) (hi : U16.decode (BitVec.ofNat 16 x) .Rv32 = .ok i) :
      ∃ j, U16.decode (BitVec.ofNat 16 x) .Rv64 = .ok j ∧ (i.opc ≠ .C .JAL → i = j) ∧
        (i.opc = .C .JAL → j.opc = .C .ADDIW) := by
    by_cases ho : i.opc = .C .JAL
    · obtain ⟨j, hj, e⟩ := jal_on_rv64 hi ho
      exact ⟨j, hj, fun h => absurd ho h, fun _ => e⟩
    · exact ⟨i, C20_rv32_then_rv64 _ _ hi ho, fun _ => rfl, fun h => absurd h ho⟩
  induction hs using sweep.induct generalizing p t with
  | case1 => cases h; exact ⟨[], rfl, rfl, by simp⟩
  | case2 x h3 => rw [sweepAt, if_pos h3] at h; cases h; exact ⟨[], by rw [sweepAt, if_pos h3], rfl, by simp⟩
  | case3 x h3 =>
    rw [sweepAt, if_neg h3] at h
    obtain ⟨i, hd, h⟩ := bind_eq_ok h
    cases h
    obtain ⟨j, hj, e⟩ := half x i hd
    refine ⟨[j], by rw [sweepAt, if_neg h3, hj]; rfl, rfl, fun ij hij => ?_⟩
    rw [List.zip_cons_cons, List.zip_nil_left, List.mem_singleton] at hij
    exact hij ▸ e
  | case4 x l rest h3 ih =>
    rw [sweepAt_word _ _ _ _ h3] at h
    obtain ⟨i, hd, h⟩ := bind_eq_ok h
    obtain ⟨⟨p', u⟩, hr, h⟩ := bind_eq_ok h
    cases h
    obtain ⟨q, hq, hl, hz⟩ := ih p' _ hr
    refine ⟨i :: q, by rw [sweepAt_word _ _ _ _ h3, C19_rv32_then_rv64 _ _ hd, RustM.bind, hq]; rfl, by simp [hl], ?_⟩
    intro ij hij
    rcases List.mem_cons.1 hij with rfl | hij
    · exact ⟨fun _ => rfl, fun e => absurd e ((C27_metadata32 _ _ _ hd).2.2.1 _)⟩
    · exact hz ij hij
  | case5 x l rest h3 ih =>
    rw [sweepAt_half _ _ _ h3] at h
    obtain ⟨i, hd, h⟩ := bind_eq_ok h
    obtain ⟨⟨p', u⟩, hr, h⟩ := bind_eq_ok h
    cases h
    obtain ⟨q, hq, hl, hz⟩ := ih p' _ hr
    obtain ⟨j, hj, e⟩ := half x i hd
    refine ⟨j :: q, by rw [sweepAt_half _ _ _ h3, hj, RustM.bind, hq]; rfl, by simp [hl], ?_⟩
    intro ij hij
    rcases List.mem_cons.1 hij with rfl | hij
    · exact e
    · exact hz ij hij

/-- C100.  For every length, how many memories of that many halfwords are the same program on both instruction sets. -/
theorem C100_same (n : Nat) : ∃ L : List (List Nat), L.Nodup ∧
    (∀ hs, hs ∈ L ↔ hs.length = n ∧ (∀ h ∈ hs, h < 2 ^ 16) ∧
      ∃ p, sweepAt .Rv32 hs = .ok (p, []) ∧ sweepAt .Rv64 hs = .ok (p, [])) ∧
    L.length = sequences 28415 274666531 n := by
  rw [← same16_count, ← C86_accepted.1]
  refine cells_list _ _ ?_ ?_ _ ⟨[], rfl, rfl⟩ same_first n
  · intro h hh ho
    obtain ⟨i, hi, -⟩ := same16_iff.1 ho
    exact low16 hh hi
  · intro w hw ho
    obtain ⟨i, hi⟩ := opcode32_some.1 ho
    exact low32 hw hi

/-- The halfword 0x2001 is `c.jal` on RV32 and `c.addiw` on RV64; 0x0001 is `c.nop` on both. -/
example : same16 0x2001 = false ∧ same16 0x0001 = true ∧ (∃ p, sweepAt .Rv32 [0x2001, 0x0001] = .ok (p, [])) ∧
    sequences 28415 274666531 2 < sequences 30463 274666531 2 :=
  ⟨by decide +kernel, by decide +kernel, ⟨_, rfl⟩, by decide⟩

end Raki
