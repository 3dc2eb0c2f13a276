import Verif.Spec.AsmText
import Verif.Props.Display
/-!
# Which texts are assembly language (C56)
-/

namespace Raki

open Spec

/-- An item that the assembly language has too. -/
def sameArg : Arg → AsmArg → Bool
  | .rd, .rd | .rs1, .rs1 | .rs2, .rs2 | .imm, .imm | .hex2, .csr | .num2, .csr | .immAtSp, .memSp => true
  | .immHex, .imm => true
  | _, _ => false

/-- Item for item. -/
def sameArgs : List Arg → List AsmArg → Bool
  | [], [] => true
  | a :: as, b :: bs => sameArg a b && sameArgs as bs
  | _, _ => false

theorem sameArg_text {i : Instruction} {a : Arg} {b : AsmArg} {s : String} (hs : sameArg a b = true)
    (hu : a = .immHex → ∀ z, i.imm = some z → 0 ≤ z ∧ z < 2 ^ 20) (h : argText i a s) :
    asmArgText i b s := by
  cases a <;> cases b <;> simp only [sameArg, Bool.false_eq_true] at hs <;>
    simp only [argText] at h <;> simp only [asmArgText]
  case rd.rd | rs1.rs1 | rs2.rs2 => exact h
  case hex2.csr =>
    obtain ⟨n, d, e, h, rfl⟩ := h
    exact ⟨n, e, .inr ⟨n, d, rfl, h, rfl⟩⟩
  case num2.csr => obtain ⟨n, e, h⟩ := h; exact ⟨n, e, .inl h⟩
  case imm.imm => obtain ⟨n, e, h⟩ := h; exact ⟨n, e, .inl h⟩
  case immHex.imm =>
    obtain ⟨z, d, e, h, rfl⟩ := h
    have := hu rfl z e
    have hz : (z % 2 ^ 32).toNat = z.toNat := by omega
    refine ⟨z, e, .inr ⟨z.toNat, d, by omega, ?_, rfl⟩⟩
    rw [isHex32, hz] at h
    exact h
  case immAtSp.memSp => obtain ⟨z, d, e, h, rfl⟩ := h; exact ⟨z, d, e, .inl h, rfl⟩

theorem sameArgs_texts {i : Instruction} {as : List Arg} {bs : List AsmArg} {ss : List String}
    (hs : sameArgs as bs = true) (hu : .immHex ∈ as → ∀ z, i.imm = some z → 0 ≤ z ∧ z < 2 ^ 20)
    (h : argTexts i as ss) : asmArgTexts i bs ss := by
  induction as generalizing bs ss with
  | nil =>
      cases bs with
      | nil => cases ss with
        | nil => trivial
        | cons _ _ => exact h.elim
      | cons _ _ => cases hs
  | cons a as ih =>
      cases bs with
      | nil => cases hs
      | cons b bs =>
          cases ss with
          | nil => exact h.elim
          | cons s ss =>
              simp only [sameArgs, Bool.and_eq_true] at hs
              exact ⟨sameArg_text hs.1 (fun e => hu (by simp [e])) h.1,
                ih hs.2 (fun e => hu (by simp [e])) h.2⟩

/-- C56 for the opcodes that print assembly language.  Missing: the other opcodes, for which it is false. -/
theorem C56_assembly_partial (i : Instruction) (h : Decoded i) (hp : printsAssembly i.opc = true)
    (s : String) (hs : i.fmt = .ok s) : isAssembly i s := by
  obtain ⟨as, ss, ha, ht, rfl⟩ := (C33_text i h s).1 hs
  have hu : ∀ z, i.opc = .BaseI .LUI ∨ i.opc = .BaseI .AUIPC → i.imm = some z → 0 ≤ z ∧ z < 2 ^ 20 := by
    intro z ho hz
    rcases h with ⟨w, isa, h⟩ | ⟨w, isa, h⟩
    · obtain ⟨r, hr, h3⟩ := C16_immediate_range32 w isa i z h hz
      rcases ho with ho | ho <;> rw [ho] at hr <;> cases hr <;> exact h3
    · obtain ⟨-, -, h4, -⟩ := C27_metadata16 w isa i h
      rcases ho with ho | ho <;> rw [ho] at h4 <;> simp at h4
  have key : ∃ bs ∈ asmSyntax i.opc, sameArgs as bs = true ∧
      (.immHex ∈ as → i.opc = .BaseI .LUI ∨ i.opc = .BaseI .AUIPC) ∧ printedName i.opc ∈ asmNames i.opc := by
    clear hu ht hs h
    revert hp ha
    generalize i.opc = op
    rcases op with o | o | o | o | o | o | o | o | o | o
    all_goals cases o
    all_goals intro hp ha
    all_goals first
      | (cases hp; done)
      | (injection ha with ha
         subst ha
         decide)
  obtain ⟨bs, hb, h1, h2, h3⟩ := key
  exact ⟨_, h3, bs, hb, ss, sameArgs_texts h1 (fun hm z hz => hu z (h2 hm) hz) ht, rfl⟩

example : ∃ i, Decoded i ∧ printsAssembly i.opc = true ∧ i.fmt = .ok "lui a0, 0xfffff" :=
  ⟨_, .inl ⟨0xfffff537, .Rv32, rfl⟩, rfl, rfl⟩
example : ∃ i, Decoded i ∧ printsAssembly i.opc = true ∧ i.fmt = .ok "csrrw a0, 0x300, a1" :=
  ⟨_, .inl ⟨0x30059573, .Rv32, rfl⟩, rfl, rfl⟩

/-! ## The other opcodes -/

/-- The numbers the assembly language can write for a value. -/
def numbers : Int → List String
  | .ofNat n => [fmtUsize n, "0x" ++ hexNat n]
  | .negSucc n => [fmtI32 (.negSucc n)]

theorem mem_numbers {s : String} {z : Int} (h : isNumber s z) : s ∈ numbers z := by
  rcases h with h | ⟨n, d, rfl, h, rfl⟩
  · cases z with
    | ofNat n => rw [decimal_unique h (fmtUsize_isDecimal n)]; simp [numbers]
    | negSucc n => rw [decimal_unique h (fmtI32_isDecimal _)]; simp [numbers]
  · rw [hex_unique h (hexNat_isHex n)]
    show _ ∈ [fmtUsize n, "0x" ++ hexNat n]
    simp

/-- The ABI name of an operand, if it has one. -/
def names : Option Nat → List String
  | some n => [abiName n]
  | none => []

theorem mem_names {o : Option Nat} {s : String} (h : isName o s) : s ∈ names o := by
  obtain ⟨n, rfl, -, rfl⟩ := h
  simp [names]

/-- All the texts of an operand. -/
def asmArgAll (i : Instruction) : AsmArg → List String
  | .rd => names i.rd
  | .rs1 => names i.rs1
  | .rs2 => names i.rs2
  | .sp => ["sp"]
  | .csr => i.rs2.toList.flatMap fun (n : Nat) => numbers n
  | .imm => i.imm.toList.flatMap numbers
  | .mem => i.imm.toList.flatMap fun z => (numbers z).flatMap fun d => (names i.rs1).map fun r =>
      d ++ "(" ++ r ++ ")"
  | .ptr => (names i.rs1).map fun r => "(" ++ r ++ ")"
  | .memSp => i.imm.toList.flatMap fun z => (numbers z).map fun d => d ++ "(sp)"

/-- All the texts of a list of operands. -/
def asmArgsAll (i : Instruction) : List AsmArg → List (List String)
  | [] => [[]]
  | a :: as => (asmArgAll i a).flatMap fun s => (asmArgsAll i as).map fun ss => s :: ss

/-- All the assembly texts of an instruction. -/
def assemblyAll (i : Instruction) : List String :=
  (asmNames i.opc).flatMap fun n => (asmSyntax i.opc).flatMap fun as => (asmArgsAll i as).map fun ss => line n ss

theorem mem_asmArgAll {i : Instruction} {a : AsmArg} {s : String} (h : asmArgText i a s) :
    s ∈ asmArgAll i a := by
  cases a <;> simp only [asmArgText] at h
  case rd | rs1 | rs2 => exact mem_names h
  case sp => simp [asmArgAll, h]
  case csr =>
    obtain ⟨n, e, h⟩ := h
    simp only [asmArgAll, e, Option.toList_some, List.mem_flatMap, List.mem_singleton]
    exact ⟨n, rfl, mem_numbers h⟩
  case imm =>
    obtain ⟨n, e, h⟩ := h
    simp only [asmArgAll, e, Option.toList_some, List.mem_flatMap, List.mem_singleton]
    exact ⟨n, rfl, mem_numbers h⟩
  case mem =>
    obtain ⟨z, d, r, e, h, g, rfl⟩ := h
    simp only [asmArgAll, e, Option.toList_some, List.mem_flatMap, List.mem_singleton, List.mem_map]
    exact ⟨z, rfl, d, mem_numbers h, r, mem_names g, rfl⟩
  case ptr =>
    obtain ⟨r, g, rfl⟩ := h
    simp only [asmArgAll, List.mem_map]
    exact ⟨r, mem_names g, rfl⟩
  case memSp =>
    obtain ⟨z, d, e, h, rfl⟩ := h
    simp only [asmArgAll, e, Option.toList_some, List.mem_flatMap, List.mem_singleton, List.mem_map]
    exact ⟨z, rfl, d, mem_numbers h, rfl⟩

theorem mem_asmArgsAll {i : Instruction} {as : List AsmArg} {ss : List String} (h : asmArgTexts i as ss) :
    ss ∈ asmArgsAll i as := by
  induction as generalizing ss with
  | nil => cases ss with
    | nil => simp [asmArgsAll]
    | cons _ _ => exact h.elim
  | cons a as ih =>
      cases ss with
      | nil => exact h.elim
      | cons s ss =>
          simp only [asmArgsAll, List.mem_flatMap, List.mem_map]
          exact ⟨s, mem_asmArgAll h.1, ss, ih h.2, rfl⟩

theorem mem_assemblyAll {i : Instruction} {s : String} (h : isAssembly i s) : s ∈ assemblyAll i := by
  obtain ⟨n, hn, as, ha, ss, ht, rfl⟩ := h
  simp only [assemblyAll, List.mem_flatMap, List.mem_map]
  exact ⟨n, hn, as, ha, ss, mem_asmArgsAll ht, rfl⟩

/-- The printed text, if there is one, is none of the assembly texts. -/
def notAssembly (i : Instruction) : Bool :=
  match i.fmt with
  | .ok s => !(assemblyAll i).contains s
  | _ => true

theorem not_assembly {i : Instruction} (h : notAssembly i = true) (s : String) (hs : i.fmt = .ok s) :
    ¬ isAssembly i s := by
  intro ha
  have := mem_assemblyAll ha
  simp [notAssembly, hs, this] at h

/-- An instruction of the opcode whose text is not assembly language. -/
def badWitness : OpcodeKind → Nat
  | .BaseI .LB => 0x00858503
  | .BaseI .LH => 0x00859503
  | .BaseI .LW => 0x0085a503
  | .BaseI .LD => 0x0085b503
  | .BaseI .LBU => 0x0085c503
  | .BaseI .LHU => 0x0085d503
  | .BaseI .LWU => 0x0085e503
  | .BaseI .SB => 0x00c58423
  | .BaseI .SH => 0x00c59423
  | .BaseI .SW => 0x00c5a423
  | .BaseI .SD => 0x00c5b423
  | .BaseI .BEQ => 0x00c58463
  | .BaseI .BNE => 0x00c59463
  | .BaseI .BLT => 0x00c5c463
  | .BaseI .BGE => 0x00c5d463
  | .BaseI .BLTU => 0x00c5e463
  | .BaseI .BGEU => 0x00c5f463
  | .BaseI .SLLI => 0x00359513
  | .BaseI .SRLI => 0x0035d513
  | .BaseI .SRAI => 0x4035d513
  | .BaseI .SLLIW => 0x0035951b
  | .BaseI .SRLIW => 0x0035d51b
  | .BaseI .SRAIW => 0x4035d51b
  | .BaseI .JAL => 0xffdff0ef
  | .M .MULHSU => 0x02c5a533
  | .A .LR_W => 0x1005a52f
  | .A .LR_D => 0x1005b52f
  | .A .SC_W => 0x18c5a52f
  | .A .SC_D => 0x18c5b52f
  | .A .AMOSWAP_W => 0x08c5a52f
  | .A .AMOSWAP_D => 0x08c5b52f
  | .A .AMOADD_W => 0x00c5a52f
  | .A .AMOADD_D => 0x00c5b52f
  | .A .AMOXOR_W => 0x20c5a52f
  | .A .AMOXOR_D => 0x20c5b52f
  | .A .AMOAND_W => 0x60c5a52f
  | .A .AMOAND_D => 0x60c5b52f
  | .A .AMOOR_W => 0x40c5a52f
  | .A .AMOOR_D => 0x40c5b52f
  | .A .AMOMIN_W => 0x80c5a52f
  | .A .AMOMIN_D => 0x80c5b52f
  | .A .AMOMAX_W => 0xa0c5a52f
  | .A .AMOMAX_D => 0xa0c5b52f
  | .A .AMOMINU_W => 0xc0c5a52f
  | .A .AMOMINU_D => 0xc0c5b52f
  | .A .AMOMAXU_W => 0xe0c5a52f
  | .A .AMOMAXU_D => 0xe0c5b52f
  | .Zifencei .FENCE => 0x0ff0000f
  | .Zicboz .CBO_ZERO => 0x0045a00f
  | .Zicfiss .SSPUSH => 0xce104073
  | .Zicfiss .SSPOPCHK => 0xcdc0c073
  | .Zicfiss .SSAMOSWAP_W => 0x48c5a52f
  | .Zicfiss .SSAMOSWAP_D => 0x48c5b52f
  | .Priv .SFENCE_VMA => 0x12000073
  | .C .ADDI4SPN => 0x0808
  | .C .LW => 0x4588
  | .C .LD => 0x6588
  | .C .SW => 0xc590
  | .C .SD => 0xe590
  | .C .ADDI => 0x0515
  | .C .ADDIW => 0x2515
  | .C .LI => 0x4515
  | .C .LUI => 0x6515
  | .C .ADDI16SP => 0x6141
  | .C .SRLI => 0x8115
  | .C .SRAI => 0x8515
  | .C .ANDI => 0x8915
  | .C .SUB => 0x8d0d
  | .C .XOR => 0x8d2d
  | .C .OR => 0x8d4d
  | .C .AND => 0x8d6d
  | .C .SUBW => 0x9d0d
  | .C .ADDW => 0x9d2d
  | .C .BEQZ => 0xc501
  | .C .BNEZ => 0xe501
  | .C .SLLI => 0x0516
  | .C .LWSP => 0x4522
  | .C .LDSP => 0x6522
  | .C .JR => 0x8502
  | .C .JALR => 0x9502
  | .C .ADD => 0x952e
  | .Zicfiss .C_SSPUSH => 0x6081
  | .Zicfiss .C_SSPOPCHK => 0x6281
  | _ => 0

theorem bad32 {op : OpcodeKind} {i : Instruction} (hd : U32.decode (BitVec.ofNat 32 (badWitness op)) .Rv64 = .ok i)
    (ho : i.opc = op) (h : notAssembly i = true) :
    ∃ i, Decoded i ∧ i.opc = op ∧ ∀ s, i.fmt = .ok s → ¬ isAssembly i s :=
  ⟨i, .inl ⟨_, _, hd⟩, ho, not_assembly h⟩

theorem bad16 {op : OpcodeKind} {i : Instruction} (hd : U16.decode (BitVec.ofNat 16 (badWitness op)) .Rv64 = .ok i)
    (ho : i.opc = op) (h : notAssembly i = true) :
    ∃ i, Decoded i ∧ i.opc = op ∧ ∀ s, i.fmt = .ok s → ¬ isAssembly i s :=
  ⟨i, .inr ⟨_, _, hd⟩, ho, not_assembly h⟩

/-- C56 is false of each of the other opcodes: some decoded instruction of it does not print as assembly
language. -/
theorem C56_refuted (op : OpcodeKind) (hp : printsAssembly op = false) :
    ∃ i, Decoded i ∧ i.opc = op ∧ ∀ s, i.fmt = .ok s → ¬ isAssembly i s := by
  rcases op with o | o | o | o | o | o | o | o | o | o
  all_goals cases o
  all_goals first
    | (cases hp; done)
    | exact bad32 rfl rfl (by decide)
    | exact bad16 rfl rfl (by decide)

end Raki
