import Verif.Props.CanonWords
import Verif.Props.RoundTrip32
import Verif.Props.RoundTrip16
/-!
# How many different instructions are decoded

The words chosen in `Verif.Props.CanonWords`, one for each instruction, are counted.
-/

namespace Raki

open Spec

/-- The instruction that a 32-bit word is decoded as. -/
def valueOf32 (isa : Isa) (n : Nat) : Option Instruction :=
  match U32.decode (BitVec.ofNat 32 n) isa with
  | .ok i => some i
  | _ => none

/-- The instruction that a halfword is decoded as. -/
def valueOf16 (isa : Isa) (n : Nat) : Option Instruction :=
  match U16.decode (BitVec.ofNat 16 n) isa with
  | .ok i => some i
  | _ => none

theorem valueOf32_iff {isa : Isa} {n : Nat} {i : Instruction} :
    valueOf32 isa n = some i ↔ U32.decode (BitVec.ofNat 32 n) isa = .ok i := by
  rw [valueOf32]
  cases U32.decode (BitVec.ofNat 32 n) isa <;> simp

theorem valueOf16_iff {isa : Isa} {n : Nat} {i : Instruction} :
    valueOf16 isa n = some i ↔ U16.decode (BitVec.ofNat 16 n) isa = .ok i := by
  rw [valueOf16]
  cases U16.decode (BitVec.ofNat 16 n) isa <;> simp

/-- The values that a function takes on the members of a set, if it is defined and injective there. -/
theorem list_of_values {α : Type} (k : Nat) (p : Nat → Bool) (f : Nat → Option α)
    (hd : ∀ n, n < k → p n = true → (f n).isSome = true)
    (hi : ∀ n m a, n < k → m < k → p n = true → p m = true → f n = some a → f m = some a → n = m) :
    ∃ l : List α, l.Nodup ∧ (∀ a, a ∈ l ↔ ∃ n, n < k ∧ p n = true ∧ f n = some a) ∧ l.length = countBelow k p := by
  refine ⟨((List.range k).filter p).filterMap f, ?_, fun a => ?_, ?_⟩
  · refine List.pairwise_filterMap.2 ?_
    have h := (List.nodup_range (n := k)).filter p
    refine h.imp_of_mem ?_
    intro n m hn hm hne a ha b hb e
    subst e
    rw [List.mem_filter, List.mem_range] at hn hm
    exact hne (hi n m a hn.1 hm.1 hn.2 hm.2 ha hb)
  · simp only [List.mem_filterMap, List.mem_filter, List.mem_range, and_assoc]
  · rw [List.length_filterMap_eq_countP, List.countP_filter, countBelow]
    refine List.countP_congr fun n hn => ?_
    rw [Bool.and_eq_true]
    exact ⟨fun h => h.2, fun h => ⟨hd n (List.mem_range.1 hn) h, h⟩⟩

theorem canons_ok (isa : Isa) (op : OpcodeKind) : (canon32 isa op).ok 32 = true := by
  have h : (allOpcodes.all fun op => [Isa.Rv32, .Rv64].all fun isa => (canon32 isa op).ok 32) = true := by
    decide +kernel
  exact List.all_eq_true.1 (List.all_eq_true.1 h op (allOpcodes_mem op)) isa (by cases isa <;> simp)

theorem canon_accepts {isa : Isa} {op : OpcodeKind} {n : Nat} (h : (canon32 isa op).has n = true) :
    accepts32 isa n op := (region32_has ..).1 (canon32_region _ _ _ h)

theorem values32_list (isa : Isa) (op : OpcodeKind) : ∃ l : List Instruction, l.Nodup ∧
    (∀ i, i ∈ l ↔ i.opc = op ∧ ∃ w, U32.decode w isa = .ok i) ∧ l.length = (canon32 isa op).size := by
  have opc {n : Nat} {i : Instruction} (hn : n < 2 ^ 32) (h : (canon32 isa op).has n = true)
      (hv : valueOf32 isa n = some i) : i.opc = op := by
    have h1 := (opcodeOf32_iff hn).2 (canon_accepts h)
    rw [opcodeOf32, valueOf32_iff.1 hv] at h1
    exact Option.some.inj h1
  obtain ⟨l, hl, hm, hc⟩ := list_of_values (2 ^ 32) (canon32 isa op).has (valueOf32 isa)
    (fun n hn h => by
      have h := (opcodeOf32_iff hn).2 (canon_accepts h)
      rw [opcodeOf32] at h
      rw [valueOf32]
      cases e : U32.decode (BitVec.ofNat 32 n) isa <;> simp_all)
    (fun n m i hn hm pn pm hvn hvm => by
      have hop := opc hn pn hvn
      subst hop
      obtain ⟨r, hr, -, -⟩ := (decode32_ok_iff ..).1 (valueOf32_iff.1 hvn)
      have h := ((C44_same_value_iff _ _ isa i r (valueOf32_iff.1 hvm) hr).1 (valueOf32_iff.1 hvn)).2
      simp only [BitVec.toNat_ofNat, Nat.mod_eq_of_lt hn, Nat.mod_eq_of_lt hm] at h
      exact canon32_inj isa i.opc r hr n m hn hm pn pm h)
  refine ⟨l, hl, fun i => ?_, hc.trans (region_count _ (canons_ok isa op))⟩
  rw [hm]
  constructor
  · intro ⟨n, hn, pn, hv⟩
    exact ⟨opc hn pn hv, _, valueOf32_iff.1 hv⟩
  · intro ⟨hop, w, hw⟩
    subst hop
    obtain ⟨r, hr, ha, -⟩ := (decode32_ok_iff ..).1 hw
    obtain ⟨m, hm, pm, he⟩ := canon32_exists isa i.opc r hr w.toNat w.isLt ((region32_has ..).2 ha)
    refine ⟨m, hm, pm, valueOf32_iff.2 ((C44_same_value_iff w _ isa i r hw hr).2 ?_)⟩
    rw [BitVec.toNat_ofNat, Nat.mod_eq_of_lt hm]
    exact ⟨canon_accepts pm, he⟩

/-- The halfwords chosen for an opcode. -/
def canon16 (isa : Isa) (op : OpcodeKind) : Region :=
  match op with
  | .C .EBREAK => [cube16 2 4 (.isIn [0]) (.isIn [0]) (.isIn [1])]
  | op => region16 isa op

theorem canons16_ok (isa : Isa) (op : OpcodeKind) : (canon16 isa op).ok 16 = true := by
  have h : (allOpcodes.all fun op => [Isa.Rv32, .Rv64].all fun isa => (canon16 isa op).ok 16) = true := by
    decide +kernel
  exact List.all_eq_true.1 (List.all_eq_true.1 h op (allOpcodes_mem op)) isa (by cases isa <;> simp)

theorem canon16_ebreak {isa : Isa} {n : Nat} (hn : n < 2 ^ 16) :
    (canon16 isa (.C .EBREAK)).has n = true ↔ n = 0x9002 := by
  simp only [canon16, cube16, region_cons, region_nil, Cube.has, Bool.and_eq_true, isIn_has, List.mem_singleton,
    or_false, Nat.div_div_eq_div_mul, and_true]
  omega

theorem canon16_same {isa : Isa} {op : OpcodeKind} (h : op ≠ .C .EBREAK) : canon16 isa op = region16 isa op := by
  unfold canon16
  split
  · contradiction
  · rfl

theorem canon16_accepts {isa : Isa} {op : OpcodeKind} {n : Nat} (hn : n < 2 ^ 16)
    (h : (canon16 isa op).has n = true) : accepts16 isa n op := by
  by_cases hb : op = .C .EBREAK
  · subst hb
    rw [canon16_ebreak hn] at h
    subst h
    exact (opcodeOf16_iff hn).1 (by cases isa <;> decide +kernel)
  · rw [canon16_same hb] at h
    exact (region16_has _ _ hn _).1 h

theorem values16_list (isa : Isa) (op : OpcodeKind) : ∃ l : List Instruction, l.Nodup ∧
    (∀ i, i ∈ l ↔ i.opc = op ∧ ∃ h, U16.decode h isa = .ok i) ∧ l.length = (canon16 isa op).size := by
  have opc {n : Nat} {i : Instruction} (hn : n < 2 ^ 16) (h : (canon16 isa op).has n = true)
      (hv : valueOf16 isa n = some i) : i.opc = op := by
    have h1 := (opcodeOf16_iff hn).2 (canon16_accepts hn h)
    rw [opcodeOf16, valueOf16_iff.1 hv] at h1
    exact Option.some.inj h1
  obtain ⟨l, hl, hm, hc⟩ := list_of_values (2 ^ 16) (canon16 isa op).has (valueOf16 isa)
    (fun n hn h => by
      have h := (opcodeOf16_iff hn).2 (canon16_accepts hn h)
      rw [opcodeOf16] at h
      rw [valueOf16]
      cases e : U16.decode (BitVec.ofNat 16 n) isa <;> simp_all)
    (fun n m i hn hm pn pm hvn hvm => by
      have hop := opc hn pn hvn
      subst hop
      by_cases hb : i.opc = .C .EBREAK
      · rw [hb, canon16_ebreak hn] at pn
        rw [hb, canon16_ebreak hm] at pm
        rw [pn, pm]
      · have h := C31_injective_partial _ _ isa isa i (valueOf16_iff.1 hvn) (valueOf16_iff.1 hvm) hb
        have h := congrArg BitVec.toNat h
        simpa only [BitVec.toNat_ofNat, Nat.mod_eq_of_lt hn, Nat.mod_eq_of_lt hm] using h)
  refine ⟨l, hl, fun i => ?_, hc.trans (region_count _ (canons16_ok isa op))⟩
  rw [hm]
  constructor
  · intro ⟨n, hn, pn, hv⟩
    exact ⟨opc hn pn hv, _, valueOf16_iff.1 hv⟩
  · intro ⟨hop, h, hh⟩
    subst hop
    by_cases hb : i.opc = .C .EBREAK
    · refine ⟨0x9002, by decide, by rw [hb, canon16_ebreak (by decide)], valueOf16_iff.2 ?_⟩
      exact (C45_same_value_iff h _ isa i hh).2 (.inr ⟨hb, by decide, by decide, by decide, by decide⟩)
    · refine ⟨h.toNat, h.isLt, ?_, ?_⟩
      · rw [canon16_same hb]
        exact (region16_has _ _ h.isLt _).2 ((decode16_ok_iff ..).1 hh).1
      · rw [valueOf16_iff, BitVec.ofNat_toNat, BitVec.setWidth_eq]
        exact hh

/-- The number of different instructions with each opcode that 32-bit words are decoded as. -/
def distinct32 (isa : Isa) (op : OpcodeKind) : Nat :=
  match gated64 op, isa, op with
  | true, .Rv32, _ => 0
  | _, _, .BaseI .JALR => 2 ^ 22
  | _, _, .BaseI .SLL | _, _, .BaseI .SLT | _, _, .BaseI .SLTU | _, _, .BaseI .XOR | _, _, .BaseI .OR
  | _, _, .BaseI .AND | _, _, .BaseI .SLLIW | _, _, .BaseI .SLLW => 2 ^ 15
  | _, _, .BaseI .ECALL | _, _, .BaseI .EBREAK => 1
  | _, _, .A .LR_W | _, _, .A .LR_D => 2 ^ 12
  | _, _, .Zicfiss .SSPUSH => 2
  | _, _, .Zicfiss .SSPOPCHK => 31
  | _, _, .Zicfiss .SSAMOSWAP_W | _, _, .Zicfiss .SSAMOSWAP_D => 2 ^ 15
  | _, _, .Zicntr _ => 2 ^ 5
  | _, _, .Priv .SFENCE_VMA => 2 ^ 10
  | _, _, _ => words32 isa op

/-- The number of different instructions with each opcode that halfwords are decoded as. -/
def distinct16 (isa : Isa) (op : OpcodeKind) : Nat :=
  match op with
  | .C .EBREAK => 1
  | _ => words16 isa op

theorem distinct_sizes (isa : Isa) (op : OpcodeKind) :
    (canon32 isa op).size = distinct32 isa op ∧ (canon16 isa op).size = distinct16 isa op := by
  have h : (allOpcodes.all fun op => [Isa.Rv32, .Rv64].all fun isa => decide <|
      (canon32 isa op).size = distinct32 isa op ∧ (canon16 isa op).size = distinct16 isa op) = true := by
    decide +kernel
  exact of_decide_eq_true
    (List.all_eq_true.1 (List.all_eq_true.1 h op (allOpcodes_mem op)) isa (by cases isa <;> simp))

/-- C97.  For every opcode, how many different instructions with it are decoded from 32-bit words and from halfwords:
the instructions are the members of a list of this length without repetitions. -/
theorem C97_opcodes (isa : Isa) (op : OpcodeKind) :
    (∃ l : List Instruction, l.Nodup ∧ (∀ i, i ∈ l ↔ i.opc = op ∧ ∃ w, U32.decode w isa = .ok i) ∧
      l.length = distinct32 isa op) ∧
    ∃ l : List Instruction, l.Nodup ∧ (∀ i, i ∈ l ↔ i.opc = op ∧ ∃ h, U16.decode h isa = .ok i) ∧
      l.length = distinct16 isa op := by
  have h1 := values32_list isa op
  have h2 := values16_list isa op
  rw [(distinct_sizes isa op).1] at h1
  rw [(distinct_sizes isa op).2] at h2
  exact ⟨h1, h2⟩

/-- Lists of instructions with each opcode make a list of instructions. -/
theorem join_lists (q : Instruction → Prop) (c : OpcodeKind → Nat) (h : ∀ op, ∃ l : List Instruction, l.Nodup ∧
    (∀ i, i ∈ l ↔ i.opc = op ∧ q i) ∧ l.length = c op) :
    ∃ l : List Instruction, l.Nodup ∧ (∀ i, i ∈ l ↔ q i) ∧ l.length = (allOpcodes.map c).sum := by
  have key (ops : List OpcodeKind) (hn : ops.Nodup) : ∃ l : List Instruction, l.Nodup ∧
      (∀ i, i ∈ l ↔ i.opc ∈ ops ∧ q i) ∧ l.length = (ops.map c).sum := by
    induction ops with
    | nil => exact ⟨[], List.nodup_nil, by simp, rfl⟩
    | cons op ops ih =>
      rw [List.nodup_cons] at hn
      obtain ⟨l, h1, h2, h3⟩ := h op
      obtain ⟨k, g1, g2, g3⟩ := ih hn.2
      refine ⟨l ++ k, ?_, fun i => ?_, ?_⟩
      · refine List.nodup_append.2 ⟨h1, g1, ?_⟩
        intro a ha b hb e
        subst e
        exact hn.1 (((h2 a).1 ha).1 ▸ ((g2 a).1 hb).1)
      · rw [List.mem_append, h2, g2, List.mem_cons]
        constructor
        · rintro (⟨a, b⟩ | ⟨a, b⟩)
          · exact ⟨.inl a, b⟩
          · exact ⟨.inr a, b⟩
        · rintro ⟨a | a, b⟩
          · exact .inl ⟨a, b⟩
          · exact .inr ⟨a, b⟩
      · rw [List.length_append, h3, g3, List.map_cons, List.sum_cons]
  obtain ⟨l, h1, h2, h3⟩ := key allOpcodes allOpcodes_nodup
  refine ⟨l, h1, fun i => ?_, h3⟩
  rw [h2]
  exact ⟨fun h => h.2, fun h => ⟨allOpcodes_mem _, h⟩⟩

/-- C97.  How many different instructions are decoded. -/
theorem C97_total :
    (∃ l : List Instruction, l.Nodup ∧ (∀ i, i ∈ l ↔ ∃ w, U32.decode w .Rv32 = .ok i) ∧ l.length = 220167462) ∧
    (∃ l : List Instruction, l.Nodup ∧ (∀ i, i ∈ l ↔ ∃ w, U32.decode w .Rv64 = .ok i) ∧ l.length = 238783782) ∧
    (∃ l : List Instruction, l.Nodup ∧ (∀ i, i ∈ l ↔ ∃ h, U16.decode h .Rv32 = .ok i) ∧ l.length = 30432) ∧
    ∃ l : List Instruction, l.Nodup ∧ (∀ i, i ∈ l ↔ ∃ h, U16.decode h .Rv64 = .ok i) ∧ l.length = 38752 := by
  refine ⟨?_, ?_, ?_, ?_⟩
  · obtain ⟨l, h1, h2, h3⟩ := join_lists _ _ fun op => (C97_opcodes .Rv32 op).1
    exact ⟨l, h1, h2, h3.trans (by decide +kernel)⟩
  · obtain ⟨l, h1, h2, h3⟩ := join_lists _ _ fun op => (C97_opcodes .Rv64 op).1
    exact ⟨l, h1, h2, h3.trans (by decide +kernel)⟩
  · obtain ⟨l, h1, h2, h3⟩ := join_lists _ _ fun op => (C97_opcodes .Rv32 op).2
    exact ⟨l, h1, h2, h3.trans (by decide +kernel)⟩
  · obtain ⟨l, h1, h2, h3⟩ := join_lists _ _ fun op => (C97_opcodes .Rv64 op).2
    exact ⟨l, h1, h2, h3.trans (by decide +kernel)⟩

/-- The eight words of `jalr x1, 0(x1)` with different `funct3` give one instruction, and the halfwords of `c.ebreak`
another; `c.jr` with different registers gives different ones. -/
example : valueOf32 .Rv32 0x000080e7 = valueOf32 .Rv32 0x0000f0e7 ∧ (valueOf32 .Rv32 0x000080e7).isSome = true ∧
    valueOf16 .Rv64 0x9002 = valueOf16 .Rv64 0x9006 ∧ valueOf16 .Rv64 0x8082 ≠ valueOf16 .Rv64 0x8282 ∧
    distinct32 .Rv32 (.BaseI .JALR) * 8 = words32 .Rv32 (.BaseI .JALR) := by
  decide +kernel

end Raki
