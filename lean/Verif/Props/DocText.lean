import Verif.Spec.DocText
import Verif.Spec.DebugText
import Verif.Source.DocRead
import Verif.Props.Accept
import Verif.Props.Assembly
/-!
# Which texts are those of the documentation (C70)
-/

namespace Raki

open Spec

/-! ## The lines are those of the text -/

/-- The words of the table of operands, as character codes. -/
noncomputable def shownArgs_codes : List (List Nat) := codes_of% (Source.shownArgs.map (·.1))

/-- The names of the formats of the lines, as character codes. -/
noncomputable def docFormats_codes : List (List Nat) := codes_of% (docLines.map fun l => formatName l.format)

/-- The names in the lines, as character codes. -/
noncomputable def docNames_codes : List (List Nat) := codes_of% (docLines.map fun l => l.name)

/-- The lines of instruction.rs, as character codes. -/
noncomputable def instructionText_codes : List (List Nat) := codes_of% Source.instruction_rs

theorem shownArgs_eq : Source.shownArgs.map (fun e => (Source.codes e.1, e.2)) =
    shownArgs_codes.zip (Source.shownArgs.map (·.2)) := by
  rw [← Source.codes_lines shownArgs_codes (Source.shownArgs.map (·.1)) (by kernel_rfl) (by kernel_rfl),
    List.map_map, List.zip_map']
  rfl

theorem docFormats_eq : docLines.map (fun l => Source.codes (formatName l.format) ++ [44]) =
    docFormats_codes.map (· ++ [44]) := by
  rw [← Source.codes_lines docFormats_codes (docLines.map fun l => formatName l.format) (by kernel_rfl)
    (by kernel_rfl), List.map_map, List.map_map]
  rfl

theorem docNames_eq : docLines.map (fun l => Source.codes l.name) = docNames_codes := by
  rw [← Source.codes_lines docNames_codes (docLines.map fun l => l.name) (by kernel_rfl) (by kernel_rfl),
    List.map_map]
  rfl

/-- C70.  The lines are those the documentation shows: the code blocks in the comments of instruction.rs, read line by
line, give for each line the variant documented (and a comma, 44), the name and the operands. -/
theorem C70_lines : Source.shown Source.instruction_rs =
    docLines.map fun l => (Source.codes (formatName l.format) ++ [44], Source.codes l.name, some l.args) := by
  have h : Source.instruction_rs.map Source.codes = instructionText_codes :=
    Source.codes_lines _ _ (by kernel_rfl) (by kernel_rfl)
  rw [← List.zip_map', ← List.zip_map', docNames_eq, docFormats_eq, Source.shown, shownArgs_eq, h]
  kernel_rfl

/-- C70 is false of the formats: two lines stand under a format their opcode does not have. -/
theorem C70_formats_refuted : ¬ ∀ l ∈ docLines, l.opc.getFormat = l.format := by decide

/-- C70, the formats: exactly two lines stand under the wrong format.  Missing: these two. -/
theorem C70_formats_partial (l : DocLine) (h : l ∈ docLines) :
    l.opc.getFormat = l.format ↔ l ∉ strayLines := by
  revert l
  decide

/-- Every format has a line. -/
theorem C70_every_format (f : InstFormat) : ∃ l ∈ docLines, l.format = f ∧ l.opc.getFormat = f := by
  cases f <;> decide

/-- The items of the documentation that are printed, where `rd` may be shown as `sp`. -/
def docArg (sp : Bool) : Arg → AsmArg → Bool
  | .rd, .sp => sp
  | .lit t, .sp => t == "sp"
  | a, b => sameArg a b

/-- Item for item. -/
def docArgs (sp : Bool) : List Arg → List AsmArg → Bool
  | [], [] => true
  | a :: as, b :: bs => docArg sp a b && docArgs sp as bs
  | _, _ => false

theorem docArg_text {sp : Bool} {i : Instruction} {a : Arg} {b : AsmArg} {s : String}
    (hs : docArg sp a b = true) (hu : a = .immHex → ∀ z, i.imm = some z → 0 ≤ z ∧ z < 2 ^ 20)
    (hsp : sp = true → i.rd = some 2) (h : argText i a s) : asmArgText i b s := by
  by_cases hb : b = .sp
  · subst hb
    cases a <;> simp only [docArg, sameArg, Bool.false_eq_true] at hs
    · obtain ⟨n, hn, -, rfl⟩ := h
      rw [hsp hs] at hn
      cases hn
      rfl
    · exact h.trans (by simpa using hs)
  · refine sameArg_text ?_ hu h
    cases a <;> cases b <;> first | exact hs | exact absurd rfl hb

theorem docArgs_texts {sp : Bool} {i : Instruction} {as : List Arg} {bs : List AsmArg} {ss : List String}
    (hs : docArgs sp as bs = true) (hu : .immHex ∈ as → ∀ z, i.imm = some z → 0 ≤ z ∧ z < 2 ^ 20)
    (hsp : sp = true → i.rd = some 2) (h : argTexts i as ss) : asmArgTexts i bs ss := by
  induction as generalizing bs ss with
  | nil =>
      cases bs with
      | nil => cases ss with
        | nil => trivial
        | cons _ _ => exact h.elim
      | cons _ _ => cases hs
  | cons a as ih =>
      cases bs with
      | nil => cases hs
      | cons b bs =>
          cases ss with
          | nil => exact h.elim
          | cons s ss =>
              simp only [docArgs, Bool.and_eq_true] at hs
              exact ⟨docArg_text hs.1 (fun e => hu (by simp [e])) hsp h.1,
                ih hs.2 (fun e => hu (by simp [e])) h.2⟩

/-- C70, the texts: of the opcodes the documentation shows, these are always printed as shown.  Missing: the
twelve of `printedOtherwise`, for which it is false. -/
theorem C70_text_partial (l : DocLine) (hl : l ∈ docLines) (hp : l.opc ∉ printedOtherwise)
    (i : Instruction) (h : Decoded i) (ho : i.opc = l.opc) : ∃ s, i.fmt = .ok s ∧ isDocText l i s := by
  have hu : i.opc = .BaseI .LUI → ∀ z, i.imm = some z → 0 ≤ z ∧ z < 2 ^ 20 := by
    intro ho z hz
    rcases h with ⟨w, isa, h⟩ | ⟨w, isa, h⟩
    · obtain ⟨r, hr, h3⟩ := C16_immediate_range32 w isa i z h hz
      rw [ho] at hr; cases hr; exact h3
    · obtain ⟨-, -, h4, -⟩ := C27_metadata16 w isa i h
      rw [ho] at h4; simp at h4
  have hsp : i.opc = .C .ADDI16SP → i.rd = some 2 := by
    intro ho
    rcases h with ⟨w, isa, h⟩ | ⟨w, isa, h⟩
    · have := (C27_metadata32 w isa i h)
      rw [ho] at this; simp at this
    · have h1 := (C12_registers16 w isa i h).1
      have h2 := (C10_accepts16_exact w isa i.opc).1 ⟨i, h, rfl⟩
      rw [ho] at h1 h2
      exact h1.trans (congrArg some h2.2)
  have key : ∃ as, args i.opc = some as ∧ docArgs (decide (i.opc = .C .ADDI16SP)) as l.args = true ∧
      (.immHex ∈ as → i.opc = .BaseI .LUI) ∧ printedName i.opc ∈ docNames l.name := by
    clear hu hsp h
    rw [ho]
    clear ho i
    revert l
    decide
  obtain ⟨as, ha, h1, h2, h3⟩ := key
  obtain ⟨s, hs, -⟩ := C33_text_exists i h (by simp [ha])
  obtain ⟨as', ss, ha', ht, rfl⟩ := (C33_text i h s).1 hs
  rw [ha] at ha'
  cases ha'
  exact ⟨_, hs, _, h3, ss,
    docArgs_texts h1 (fun hm => hu (h2 hm)) (fun e => hsp (by simpa using e)) ht, rfl⟩

example : ∃ l ∈ docLines, l.opc ∉ printedOtherwise ∧ ∃ i, Decoded i ∧ i.opc = l.opc ∧
    i.fmt = .ok "C.addi16sp sp, sp, -64" :=
  ⟨⟨.CiFormat, .C .ADDI16SP, "c.addi16sp", [.sp, .sp, .imm]⟩, by decide, by decide, _,
    .inr ⟨0x7139, .Rv32, rfl⟩, rfl, rfl⟩

/-! ## The other lines -/

/-- All the texts a line stands for. -/
def docAll (l : DocLine) (i : Instruction) : List String :=
  (docNames l.name).flatMap fun n => (asmArgsAll i l.args).map fun ss => line n ss

theorem mem_docAll {l : DocLine} {i : Instruction} {s : String} (h : isDocText l i s) : s ∈ docAll l i := by
  obtain ⟨n, hn, ss, ht, rfl⟩ := h
  simp only [docAll, List.mem_flatMap, List.mem_map]
  exact ⟨n, hn, ss, mem_asmArgsAll ht, rfl⟩

/-- The printed text, if there is one, is none the line stands for. -/
def notDoc (l : DocLine) (i : Instruction) : Bool :=
  match i.fmt with
  | .ok s => !(docAll l i).contains s
  | _ => true

theorem not_doc {l : DocLine} {i : Instruction} (h : notDoc l i = true) (s : String) (hs : i.fmt = .ok s) :
    ¬ isDocText l i s := by
  intro ha
  have := mem_docAll ha
  simp [notDoc, hs, this] at h

/-- The word decodes to an instruction of the line's opcode that is printed otherwise. -/
def badLine (l : DocLine) : Bool :=
  (match U32.decode (BitVec.ofNat 32 (badWitness l.opc)) .Rv64 with
    | .ok i => i.opc = l.opc && notDoc l i
    | _ => false) ||
  (match U16.decode (BitVec.ofNat 16 (badWitness l.opc)) .Rv64 with
    | .ok i => i.opc = l.opc && notDoc l i
    | _ => false)

/-- C70 is false of each of the other lines: some decoded instruction of the opcode is not printed as
shown. -/
theorem C70_text_refuted (l : DocLine) (hl : l ∈ docLines) (hp : l.opc ∈ printedOtherwise) :
    ∃ i, Decoded i ∧ i.opc = l.opc ∧ ∀ s, i.fmt = .ok s → ¬ isDocText l i s := by
  have h : badLine l = true := by
    revert l
    decide
  simp only [badLine, Bool.or_eq_true] at h
  rcases h with h | h
  · split at h
    · rename_i i hd
      simp only [Bool.and_eq_true, decide_eq_true_eq] at h
      exact ⟨i, .inl ⟨_, _, hd⟩, h.1, not_doc h.2⟩
    · cases h
  · split at h
    · rename_i i hd
      simp only [Bool.and_eq_true, decide_eq_true_eq] at h
      exact ⟨i, .inr ⟨_, _, hd⟩, h.1, not_doc h.2⟩
    · cases h

end Raki
