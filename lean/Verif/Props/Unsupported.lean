import Verif.Spec.Unsupported
import Verif.Source.DocRead
import Verif.Source.ReadmeText
import Verif.Props.Accept
/-!
# Instructions of extensions the crate does not support (C82)
-/

namespace Raki

open Spec

set_option linter.unusedSimpArgs false

/-- What `C82_words_partial` says of an instruction. -/
private def Right (f : Foreign) : Prop := ∀ (w : BitVec 32) (isa : Isa), isa ∈ f.isas → f.has w.toNat →
    match f.taken with
    | some op => ∃ i, U32.decode w isa = .ok i ∧ i.opc = op
    | none => ∃ e, U32.decode w isa = .err e

/-- Shifts by an immediate with a function code that is not one of theirs. -/
private theorem shift_refused (w : BitVec 32) (isa : Isa) (h0 : fld w.toNat 6 0 = 0x13)
    (h : fld w.toNat 14 12 = 1 ∧ fld w.toNat 31 26 ≠ 0 ∨
      fld w.toNat 14 12 = 5 ∧ fld w.toNat 31 26 ≠ 0 ∧ fld w.toNat 31 26 ≠ 0x10) :
    ∃ e, U32.decode w isa = .err e := by
  have h6 : fld w.toNat 31 26 = fld w.toNat 31 25 / 2 := by simp only [fld]; omega
  cases isa
  · refine ⟨.InvalidFunct7, (decode32_err_iff _ _ _).2 (.inl ⟨rfl, h0, ?_⟩)⟩
    simp only [List.mem_cons, List.not_mem_nil, or_false]
    omega
  · refine ⟨.InvalidFunct6, (decode32_err_iff _ _ _).2 ⟨rfl, h0, ?_⟩⟩
    simp only [List.mem_cons, List.not_mem_nil, or_false]
    omega

/-- SYSTEM words with function code 0 and another `funct7`. -/
private theorem priv_refused (w : BitVec 32) (isa : Isa) (h0 : fld w.toNat 6 0 = 0x73) (h3 : fld w.toNat 14 12 = 0)
    (h : fld w.toNat 31 25 ≠ 0 ∧ fld w.toNat 31 25 ≠ 8 ∧ fld w.toNat 31 25 ≠ 9 ∧ fld w.toNat 31 25 ≠ 24) :
    ∃ e, U32.decode w isa = .err e := by
  refine ⟨.InvalidFunct7, (decode32_err_iff _ _ _).2 (.inr (.inr (.inr ⟨h0, h3, ?_, ?_⟩)))⟩ <;>
    simp only [List.mem_cons, List.not_mem_nil, or_false, fld] at *
  · omega
  · omega

/-- SYSTEM words with function code 4. -/
private theorem system4_refused (w : BitVec 32) (isa : Isa) (h0 : fld w.toNat 6 0 = 0x73) (h3 : fld w.toNat 14 12 = 4)
    (h : fld w.toNat 31 25 ≠ 0x66 ∧ fld w.toNat 31 25 ≠ 0x67) : ∃ e, U32.decode w isa = .err e := by
  have h7 : fld w.toNat 31 25 = fld w.toNat 31 20 / 32 := by simp only [fld]; omega
  refine ⟨.InvalidOpcode, (decode32_err_iff _ _ _).2 (.inr (.inr ⟨h0, h3, ?_⟩))⟩
  simp only [List.mem_cons, List.not_mem_nil, or_false]
  omega

private theorem right (f : Foreign) (h : f ∈ foreign32) : Right f := by
  simp only [foreign32, List.mem_cons, List.not_mem_nil, or_false] at h
  repeat' (first | rcases h with rfl | h)
  all_goals
    intro w isa hi hw
    have h6 : fld w.toNat 31 26 = fld w.toNat 31 25 / 2 := by simp only [fld]; omega
    have h7 : fld w.toNat 31 25 = fld w.toNat 31 20 / 32 := by simp only [fld]; omega
    have h5 : fld w.toNat 24 20 = fld w.toNat 31 20 % 32 := by simp only [fld]; omega
    simp only [Foreign.has, List.mem_cons, List.not_mem_nil, or_false, forall_eq_or_imp, forall_eq] at hi hw
    first
    | refine (decode32_accepts _ _ _).2 ?_
      simp [accepts32, gated64, hi, hw]
      done
    | exact shift_refused w isa hw.1 (by omega)
    | exact priv_refused w isa hw.1 hw.2.1 (by omega)
    | exact system4_refused w isa hw.1 hw.2.1 (by omega)
    | refine ⟨.InvalidOpcode, (decode32_err_iff _ _ _).2 ?_⟩
      simp [rejects32, hw]
      done
    | refine ⟨.UnknownExtension, (decode32_err_iff _ _ _).2 ?_⟩
      simp [rejects32, hw]
      done
    | refine ⟨.InvalidFunct5, (decode32_err_iff _ _ _).2 ?_⟩
      simp [rejects32, hw, h7, h5]
      done
    | refine ⟨.InvalidFunct7, (decode32_err_iff _ _ _).2 ?_⟩
      simp [rejects32, hw, h7]
      done

/-- C82, words: every word of an instruction of these extensions is refused, except for the instructions listed as
taken for another; and those are always taken for it.  Missing: the latter. -/
theorem C82_words_partial (f : Foreign) (h : f ∈ foreign32) (w : BitVec 32) (isa : Isa) (hi : isa ∈ f.isas)
    (hw : f.has w.toNat) :
    match f.taken with
    | some op => ∃ i, U32.decode w isa = .ok i ∧ i.opc = op
    | none => ∃ e, U32.decode w isa = .err e :=
  right f h w isa hi hw

-- every instruction listed has words
example : ∀ f ∈ foreign32, f.fixed.all (fun x => fld f.least x.1 x.2.1 == x.2.2) = true := by decide

/-- C82 is false of the code: `andn` is taken for `and`. -/
theorem C82_refuted : ¬ ∀ f ∈ foreign32, ∀ (w : BitVec 32) (isa : Isa), isa ∈ f.isas → f.has w.toNat →
    ∀ i, U32.decode w isa ≠ .ok i := by
  intro h
  refine h ⟨"andn", "Zbb", [.Rv32, .Rv64], [(6, 0, 0x33), (14, 12, 7), (31, 25, 0b0100000)], some (.BaseI .AND)⟩
    (by simp [foreign32]) 0x40c5f533#32 .Rv32 (by decide) ?_ _ rfl
  intro x hx
  revert x
  decide

/-- C82.  None of these words is one that the manuals assign to a supported instruction. -/
theorem C82_foreign32 (f : Foreign) (h : f ∈ foreign32) (w : BitVec 32) (isa : Isa) (hi : isa ∈ f.isas)
    (hw : f.has w.toNat) (op : OpcodeKind) : ¬ official32 isa w.toNat op := by
  intro ho
  obtain ⟨i, hd, rfl⟩ := C05_official32_decoded w isa op ho
  have hr := right f h w isa hi hw
  cases ht : f.taken with
  | none =>
    rw [ht] at hr
    obtain ⟨e, he⟩ := hr
    rw [hd] at he
    cases he
  | some t =>
    rw [ht] at hr
    obtain ⟨j, hj, hjt⟩ := hr
    rw [hd] at hj
    injection hj with hj
    subst hj
    rw [hjt] at ho
    have h6 : fld w.toNat 31 26 = fld w.toNat 31 25 / 2 := by simp only [fld]; omega
    have h7 : fld w.toNat 31 25 = fld w.toNat 31 20 / 32 := by simp only [fld]; omega
    clear hjt hd hi
    revert ho ht hw
    simp only [foreign32, List.mem_cons, List.not_mem_nil, or_false] at h
    repeat' (first | rcases h with rfl | h)
    all_goals
      intro hw ho ht
      cases ht
      try
        simp only [Foreign.has, List.mem_cons, List.not_mem_nil, or_false, forall_eq_or_imp, forall_eq] at hw
        simp only [official32, row32, fixed32] at ho
        omega

/-- What `C82_halfwords_partial` says of an instruction. -/
private def Right16 (f : Foreign) : Prop := ∀ (h : BitVec 16) (isa : Isa), isa ∈ f.isas → f.has h.toNat →
    match f.taken with
    | some op => ∃ i, U16.decode h isa = .ok i ∧ i.opc = op
    | none => ∃ e, U16.decode h isa = .err e

private theorem right16 (f : Foreign) (h : f ∈ foreign16) : Right16 f := by
  simp only [foreign16, List.mem_cons, List.not_mem_nil, or_false] at h
  repeat' (first | rcases h with rfl | h)
  all_goals
    intro w isa hi hw
    have h1 : fld w.toNat 11 10 = fld w.toNat 12 10 % 4 := by simp only [fld]; omega
    have h2 : fld w.toNat 12 12 = fld w.toNat 12 10 / 4 := by simp only [fld]; omega
    simp only [Foreign.has, List.mem_cons, List.not_mem_nil, or_false, forall_eq_or_imp, forall_eq] at hi hw
    first
    | refine ⟨.InvalidOpcode, (decode16_err_iff _ _ _).2 ?_⟩
      simp [rejects16, quad, hw, h1, h2]
      done
    | refine ⟨.OnlyRv64Inst, (decode16_err_iff _ _ _).2 ?_⟩
      simp [rejects16, quad, hw, hi]
      done
    | refine (decode16_accepts _ _ _).2 ?_
      have e : w.toNat = fld w.toNat 15 0 := by simp only [fld]; have := w.isLt; omega
      rw [e, hw]
      exact ⟨⟨by decide, by decide⟩, by decide, by decide, by decide⟩

/-- C82, halfwords: as for words. -/
theorem C82_halfwords_partial (f : Foreign) (hf : f ∈ foreign16) (h : BitVec 16) (isa : Isa) (hi : isa ∈ f.isas)
    (hh : f.has h.toNat) :
    match f.taken with
    | some op => ∃ i, U16.decode h isa = .ok i ∧ i.opc = op
    | none => ∃ e, U16.decode h isa = .err e :=
  right16 f hf h isa hi hh

example : ∀ f ∈ foreign16, f.fixed.all (fun x => fld f.least x.1 x.2.1 == x.2.2) = true := by decide

/-- C82 is false of the code: `c.mop.3` is taken for `c.lui`. -/
theorem C82_halfwords_refuted : ¬ ∀ f ∈ foreign16, ∀ (h : BitVec 16) (isa : Isa), isa ∈ f.isas → f.has h.toNat →
    ∀ i, U16.decode h isa ≠ .ok i := by
  intro h
  refine h ⟨"c.mop.3", "Zcmop", [.Rv32, .Rv64], [(15, 0, 0x6181)], some (.C .LUI)⟩ (by simp [foreign16]) 0x6181#16 .Rv32
    (by decide) ?_ _ rfl
  intro x hx
  revert x
  decide

/-- C82.  None of these halfwords is one that the manuals assign to a supported instruction. -/
theorem C82_foreign16 (f : Foreign) (hf : f ∈ foreign16) (h : BitVec 16) (isa : Isa) (hi : isa ∈ f.isas)
    (hh : f.has h.toNat) (op : OpcodeKind) : ¬ official16 isa h.toNat op := by
  intro ho
  obtain ⟨i, hd⟩ := C42_advertised16 h isa op ho
  have hr := right16 f hf h isa hi hh
  cases ht : f.taken with
  | none =>
    rw [ht] at hr
    obtain ⟨e, he⟩ := hr
    rw [hd] at he
    cases he
  | some t =>
    clear hr hd hi
    have e : h.toNat = fld h.toNat 15 0 := by simp only [fld]; have := h.isLt; omega
    rw [e] at ho
    revert ho ht hh
    simp only [foreign16, List.mem_cons, List.not_mem_nil, or_false] at hf
    repeat' (first | rcases hf with rfl | hf)
    all_goals
      intro hh ho ht
      cases ht
      try
        simp only [Foreign.has, List.mem_cons, List.not_mem_nil, or_false, forall_eq] at hh
        rw [hh] at ho
        cases op <;> rename_i o <;> cases o <;> simp [official16, quad, fld] at ho

/-! ## What README.md says -/

private noncomputable def readme_codes : List (List Nat) := codes_of% Source.readme_md
private noncomputable def support_codes : List (List Nat) := codes_of% (readmeSupport.map (·.2))

/-- C82.  The list of extensions is the one in README.md. -/
theorem C82_readme : Source.boxes (Source.readme_md.map Source.codes) =
    readmeSupport.map fun e => (e.1, Source.codes e.2) := by
  have h : Source.readme_md.map Source.codes = readme_codes := Source.codes_lines _ _ (by kernel_rfl) (by kernel_rfl)
  have hs : readmeSupport.map (fun e => Source.codes e.2) = support_codes := by
    rw [← Source.codes_lines support_codes (readmeSupport.map (·.2)) (by kernel_rfl) (by kernel_rfl), List.map_map]
    rfl
  rw [← List.zip_map', hs, h]
  kernel_rfl

/-- C82.  The ticked entries are groups of opcodes.  The groups without a ticked entry are Zicboz, which README.md does
not mention, and Priv, whose entry names the four instructions it has. -/
theorem C82_groups :
    (∀ n, (true, n) ∈ readmeSupport → ∃ op, groupName op = n) ∧
    (∀ op, (true, groupName op) ∉ readmeSupport ↔ (∃ o, op = .Zicboz o) ∨ ∃ o, op = .Priv o) := by
  constructor
  · intro n h
    simp only [readmeSupport, List.mem_cons, List.not_mem_nil, or_false, Prod.mk.injEq, true_and, reduceCtorEq,
      false_and, false_or] at h
    rcases h with rfl | rfl | rfl | rfl | rfl | rfl | rfl | rfl
    · exact ⟨.BaseI .ADD, rfl⟩
    · exact ⟨.M .MUL, rfl⟩
    · exact ⟨.A .LR_W, rfl⟩
    · exact ⟨.C .NOP, rfl⟩
    · exact ⟨.Zicsr .CSRRW, rfl⟩
    · exact ⟨.Zifencei .FENCE, rfl⟩
    · exact ⟨.Zicntr .RDTIME, rfl⟩
    · exact ⟨.Zicfiss .SSPUSH, rfl⟩
  · intro op
    cases op <;> rename_i o <;> simp [groupName, readmeSupport]
    all_goals exact ⟨o, trivial⟩

end Raki
