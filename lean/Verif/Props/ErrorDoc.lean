import Verif.Spec.ErrorDoc
import Verif.Source.DocRead
import Verif.Source.Text
import Verif.Model.Derive
import Verif.Lemmas.Decode32
import Verif.Lemmas.Decode16
import Verif.Props.Total
/-!
# Errors mean what their documentation says (C81)
-/

namespace Raki

open Spec

/-! ## The sentences are those of the text -/

private noncomputable def decodeText_codes : List (List Nat) := codes_of% Source.decode_rs
private noncomputable def errorNames_codes : List (List Nat) := codes_of% (errorDocs.map fun e => e.1.debug)
private noncomputable def errorDocs_codes : List (List Nat) := codes_of% (errorDocs.map fun e => e.2)
private noncomputable def errorHead_codes : List (List Nat) := codes_of% ["pub enum DecodingError {"]

/-- C81.  The sentences are those of the documentation: read from the text of decode.rs, each above the variant (and a
comma, 44) it belongs to; and no variant is missing. -/
theorem C81_documented :
    Source.documented (Source.codes "pub enum DecodingError {") (Source.decode_rs.map Source.codes) =
      errorDocs.map (fun e => (Source.codes e.1.debug ++ [44], Source.codes e.2)) ∧
    ∀ e : DecodingError, e ∈ errorDocs.map (·.1) := by
  refine ⟨?_, fun e => by cases e <;> decide⟩
  have h : Source.decode_rs.map Source.codes = decodeText_codes := Source.codes_lines _ _ (by kernel_rfl) (by kernel_rfl)
  have hn : errorDocs.map (fun e => Source.codes e.1.debug ++ [44]) = errorNames_codes.map (· ++ [44]) := by
    rw [← Source.codes_lines errorNames_codes (errorDocs.map fun e => e.1.debug) (by kernel_rfl) (by kernel_rfl),
      List.map_map, List.map_map]
    rfl
  have hd : errorDocs.map (fun e => Source.codes e.2) = errorDocs_codes := by
    rw [← Source.codes_lines errorDocs_codes (errorDocs.map fun e => e.2) (by kernel_rfl) (by kernel_rfl),
      List.map_map]
    rfl
  have hh : [Source.codes "pub enum DecodingError {"] = errorHead_codes :=
    Source.codes_lines errorHead_codes ["pub enum DecodingError {"] (by kernel_rfl) (by kernel_rfl)
  have hh : Source.codes "pub enum DecodingError {" = errorHead_codes.headD [] := by rw [← hh]; rfl
  rw [← List.zip_map', hd, hn, h, hh]
  kernel_rfl

/-! ## The fields named by the errors -/

/-- A word with one field changed decodes, or is one that exists only on RV64. -/
private theorem blame {w : BitVec 32} {isa : Isa} {hi lo : Nat} (n : Nat) (op : OpcodeKind) (hn : n < 2 ^ 32)
    (hw : agreeOutside w.toNat n hi lo) (ha : accepts32 .Rv64 n op)
    (hb : gated64 op = true ∨ accepts32 isa n op) :
    ∃ w' : BitVec 32, agreeOutside w.toNat w'.toNat hi lo ∧
      ((∃ i, U32.decode w' isa = .ok i) ∨ isa = .Rv32 ∧ U32.decode w' isa = .err .OnlyRv64Inst) := by
  have e : (BitVec.ofNat 32 n).toNat = n := by rw [BitVec.toNat_ofNat]; exact Nat.mod_eq_of_lt hn
  refine ⟨BitVec.ofNat 32 n, by rw [e]; exact hw, ?_⟩
  rcases hb with hg | hb
  · cases isa with
    | Rv32 => exact .inr ⟨rfl, (decode32_err_iff _ _ _).2 ⟨rfl, op, hg, by rw [e]; exact ha⟩⟩
    | Rv64 => exact .inl (((decode32_accepts _ _ op).2 (by rw [e]; exact ha)).imp fun _ h => h.1)
  · exact .inl (((decode32_accepts _ _ op).2 (by rw [e]; exact hb)).imp fun _ h => h.1)

/-- A word with another value in bits 14..12. -/
private theorem put3 (n v : Nat) (hn : n < 2 ^ 32) (hv : v < 8) : ∃ m, m < 2 ^ 32 ∧ agreeOutside n m 14 12 ∧
    fld m 14 12 = v ∧ fld m 6 0 = fld n 6 0 ∧ fld m 31 25 = fld n 31 25 ∧ fld m 31 27 = fld n 31 27 ∧
    fld m 24 20 = fld n 24 20 := by
  refine ⟨n / 2 ^ 15 * 2 ^ 15 + v * 2 ^ 12 + n % 2 ^ 12, ?_⟩
  simp only [agreeOutside, fld]
  omega

/-- A word with another value in bits 24..20. -/
private theorem put5 (n v : Nat) (hn : n < 2 ^ 32) (hv : v < 32) : ∃ m, m < 2 ^ 32 ∧ agreeOutside n m 24 20 ∧
    fld m 24 20 = v ∧ fld m 6 0 = fld n 6 0 ∧ fld m 14 12 = fld n 14 12 ∧
    fld m 31 20 = fld n 31 25 * 32 + v := by
  refine ⟨n / 2 ^ 25 * 2 ^ 25 + v * 2 ^ 20 + n % 2 ^ 20, ?_⟩
  simp only [agreeOutside, fld]
  omega

/-- A word with another value in bits 31..26. -/
private theorem put6 (n v : Nat) (hn : n < 2 ^ 32) (hv : v < 64) : ∃ m, m < 2 ^ 32 ∧ agreeOutside n m 31 26 ∧
    fld m 31 26 = v ∧ fld m 6 0 = fld n 6 0 ∧ fld m 14 12 = fld n 14 12 := by
  refine ⟨v * 2 ^ 26 + n % 2 ^ 26, ?_⟩
  simp only [agreeOutside, fld]
  omega

/-- A word with another value in bits 31..25. -/
private theorem put7 (n v : Nat) (hn : n < 2 ^ 32) (hv : v < 128) : ∃ m, m < 2 ^ 32 ∧ agreeOutside n m 31 25 ∧
    fld m 31 25 = v ∧ fld m 31 26 = v / 2 ∧ fld m 6 0 = fld n 6 0 ∧ fld m 14 12 = fld n 14 12 := by
  refine ⟨v * 2 ^ 25 + n % 2 ^ 25, ?_⟩
  simp only [agreeOutside, fld]
  omega

/-- C81, `InvalidFunct3`, `InvalidFunct5`, `InvalidFunct6` and `InvalidFunct7`: the field named is the reason.  With
another value in that field, and no other bit changed, the word decodes under the same ISA or is one that exists only
on RV64. -/
theorem C81_fields_partial (w : BitVec 32) (isa : Isa) (e : DecodingError) (hi lo : Nat)
    (h : U32.decode w isa = .err e) (hf : namedField e = some (hi, lo)) :
    ∃ w' : BitVec 32, agreeOutside w.toNat w'.toNat hi lo ∧
      ((∃ i, U32.decode w' isa = .ok i) ∨ isa = .Rv32 ∧ U32.decode w' isa = .err .OnlyRv64Inst) := by
  have hr := (decode32_err_iff w isa e).1 h
  have hw := w.isLt
  cases e <;> simp only [namedField, reduceCtorEq, Option.some.injEq, Prod.mk.injEq] at hf <;>
    obtain ⟨rfl, rfl⟩ := hf
  · -- InvalidFunct3
    obtain ⟨m, hm, hag, h3, h0, h7, h57, _⟩ := put3 w.toNat 0 hw (by omega)
    simp only [rejects32] at hr
    rcases hr with hr | hr | hr | hr | hr | hr | hr
    · exact blame m (.BaseI .BEQ) hm hag ⟨by simp [gated64], h0.trans hr.1, h3⟩
        (.inr ⟨by simp [gated64], h0.trans hr.1, h3⟩)
    · exact blame m (.BaseI .LB) hm hag ⟨by simp [gated64], h0.trans hr.1, h3⟩
        (.inr ⟨by simp [gated64], h0.trans hr.1, h3⟩)
    · exact blame m (.BaseI .SB) hm hag ⟨by simp [gated64], h0.trans hr.1, h3⟩
        (.inr ⟨by simp [gated64], h0.trans hr.1, h3⟩)
    · exact blame m (.BaseI .ADDIW) hm hag ⟨fun _ => rfl, h0.trans hr.1, h3⟩ (.inl rfl)
    · rcases List.mem_cons.1 hr.2.1 with hc | hc
      · exact blame m (.BaseI .ADDW) hm hag ⟨fun _ => rfl, h0.trans hr.1, h3, h7.trans hc⟩ (.inl rfl)
      · exact blame m (.BaseI .SUBW) hm hag
          ⟨fun _ => rfl, h0.trans hr.1, h3, h7.trans (List.mem_singleton.1 hc)⟩ (.inl rfl)
    · exact blame m (.M .MULW) hm hag ⟨fun _ => rfl, h0.trans hr.1, h3, h7.trans hr.2.1⟩ (.inl rfl)
    · obtain ⟨m, hm, hag, h3, h0, _, h57, _⟩ := put3 w.toNat 2 hw (by omega)
      obtain ⟨ho, -, hc⟩ := hr
      rw [← h0] at ho
      rw [← h57] at hc
      simp only [List.mem_cons, List.not_mem_nil, or_false] at hc
      rcases hc with hc | hc | hc | hc | hc | hc | hc | hc | hc | hc | hc | hc
      · exact blame m (.A .AMOADD_W) hm hag ⟨by simp [gated64], ho, h3, hc⟩ (.inr ⟨by simp [gated64], ho, h3, hc⟩)
      · exact blame m (.A .AMOSWAP_W) hm hag ⟨by simp [gated64], ho, h3, hc⟩ (.inr ⟨by simp [gated64], ho, h3, hc⟩)
      · exact blame m (.A .LR_W) hm hag ⟨by simp [gated64], ho, h3, hc⟩ (.inr ⟨by simp [gated64], ho, h3, hc⟩)
      · exact blame m (.A .SC_W) hm hag ⟨by simp [gated64], ho, h3, hc⟩ (.inr ⟨by simp [gated64], ho, h3, hc⟩)
      · exact blame m (.A .AMOXOR_W) hm hag ⟨by simp [gated64], ho, h3, hc⟩ (.inr ⟨by simp [gated64], ho, h3, hc⟩)
      · exact blame m (.A .AMOOR_W) hm hag ⟨by simp [gated64], ho, h3, hc⟩ (.inr ⟨by simp [gated64], ho, h3, hc⟩)
      · exact blame m (.Zicfiss .SSAMOSWAP_W) hm hag ⟨by simp [gated64], ho, h3, hc⟩
          (.inr ⟨by simp [gated64], ho, h3, hc⟩)
      · exact blame m (.A .AMOAND_W) hm hag ⟨by simp [gated64], ho, h3, hc⟩ (.inr ⟨by simp [gated64], ho, h3, hc⟩)
      · exact blame m (.A .AMOMIN_W) hm hag ⟨by simp [gated64], ho, h3, hc⟩ (.inr ⟨by simp [gated64], ho, h3, hc⟩)
      · exact blame m (.A .AMOMAX_W) hm hag ⟨by simp [gated64], ho, h3, hc⟩ (.inr ⟨by simp [gated64], ho, h3, hc⟩)
      · exact blame m (.A .AMOMINU_W) hm hag ⟨by simp [gated64], ho, h3, hc⟩ (.inr ⟨by simp [gated64], ho, h3, hc⟩)
      · exact blame m (.A .AMOMAXU_W) hm hag ⟨by simp [gated64], ho, h3, hc⟩ (.inr ⟨by simp [gated64], ho, h3, hc⟩)
  · -- InvalidFunct5
    obtain ⟨m, hm, hag, _, h0, h3, h20⟩ := put5 w.toNat 0 hw (by omega)
    simp only [rejects32] at hr
    have h20 : fld m 31 20 = 0 := by omega
    exact blame m (.BaseI .ECALL) hm hag ⟨by simp [gated64], h0.trans hr.1, h3.trans hr.2.1, h20⟩
      (.inr ⟨by simp [gated64], h0.trans hr.1, h3.trans hr.2.1, h20⟩)
  · -- InvalidFunct6
    obtain ⟨m, hm, hag, h6, h0, h3⟩ := put6 w.toNat 0 hw (by omega)
    simp only [rejects32] at hr
    obtain ⟨rfl, ho, hr | hr⟩ := hr
    · exact blame m (.BaseI .SLLI) hm hag ⟨by simp [gated64], h0.trans ho, h3.trans hr.1, h6⟩
        (.inr ⟨by simp [gated64], h0.trans ho, h3.trans hr.1, h6⟩)
    · exact blame m (.BaseI .SRLI) hm hag ⟨by simp [gated64], h0.trans ho, h3.trans hr.1, h6⟩
        (.inr ⟨by simp [gated64], h0.trans ho, h3.trans hr.1, h6⟩)
  · -- InvalidFunct7
    obtain ⟨m, hm, hag, h7, h6, h0, h3⟩ := put7 w.toNat 0 hw (by omega)
    simp only [rejects32] at hr
    rcases hr with ⟨rfl, ho, hr | hr⟩ | hr | hr | hr
    · exact blame m (.BaseI .SLLI) hm hag ⟨by simp [gated64], h0.trans ho, h3.trans hr.1, h6⟩
        (.inr ⟨by simp [gated64], h0.trans ho, h3.trans hr.1, h7⟩)
    · exact blame m (.BaseI .SRLI) hm hag ⟨by simp [gated64], h0.trans ho, h3.trans hr.1, h6⟩
        (.inr ⟨by simp [gated64], h0.trans ho, h3.trans hr.1, h7⟩)
    · rcases List.mem_cons.1 hr.2.1 with hc | hc
      · exact blame m (.BaseI .ADD) hm hag ⟨by simp [gated64], h0.trans hr.1, h3.trans hc, h7⟩
          (.inr ⟨by simp [gated64], h0.trans hr.1, h3.trans hc, h7⟩)
      · have hc := List.mem_singleton.1 hc
        exact blame m (.BaseI .SRL) hm hag ⟨by simp [gated64], h0.trans hr.1, h3.trans hc, h7⟩
          (.inr ⟨by simp [gated64], h0.trans hr.1, h3.trans hc, h7⟩)
    · exact blame m (.BaseI .SRLIW) hm hag ⟨fun _ => rfl, h0.trans hr.1, h3.trans hr.2.1, h7⟩ (.inl rfl)
    · obtain ⟨m, hm, hag, h7, _, h0, h3⟩ := put7 w.toNat 9 hw (by omega)
      exact blame m (.Priv .SFENCE_VMA) hm hag ⟨by simp [gated64], h0.trans hr.1, h3.trans hr.2.1, h7⟩
        (.inr ⟨by simp [gated64], h0.trans hr.1, h3.trans hr.2.1, h7⟩)

-- the four errors occur
example : U32.decode 0x00002063#32 .Rv32 = .err .InvalidFunct3 := rfl
example : U32.decode 0x00200073#32 .Rv32 = .err .InvalidFunct5 := rfl
example : U32.decode 0xfc001013#32 .Rv64 = .err .InvalidFunct6 := rfl
example : U32.decode 0x02001013#32 .Rv32 = .err .InvalidFunct7 := rfl

/-! ## Opcodes and extensions -/

/-- C81, `UnknownExtension`: no word with the same opcode (bits 6..0) and the same value in the field that tells the
extension decodes, under either ISA; that field is bits 14..12, 31..27 or 31..25. -/
theorem C81_extension_partial (w : BitVec 32) (isa : Isa) (h : U32.decode w isa = .err .UnknownExtension) :
    ∃ hi lo, (hi, lo) ∈ [(14, 12), (31, 27), (31, 25)] ∧ ∀ (w' : BitVec 32) (isa' : Isa),
      fld w'.toNat 6 0 = fld w.toNat 6 0 → fld w'.toNat hi lo = fld w.toNat hi lo →
      U32.decode w' isa' = .err .UnknownExtension := by
  rcases (decode32_err_iff w isa _).1 h with h | h | h
  · exact ⟨14, 12, by simp, fun w' isa' h0 hk => (decode32_err_iff _ _ _).2 (.inl ⟨h0.trans h.1, hk ▸ h.2⟩)⟩
  · exact ⟨31, 27, by simp, fun w' isa' h0 hk => (decode32_err_iff _ _ _).2 (.inr (.inl ⟨h0.trans h.1, hk ▸ h.2⟩))⟩
  · exact ⟨31, 25, by simp, fun w' isa' h0 hk => (decode32_err_iff _ _ _).2 (.inr (.inr ⟨h0.trans h.1, hk ▸ h.2⟩))⟩

/-- C81, `InvalidOpcode` of words: no word with the same opcode (bits 6..0) decodes, under either ISA, except in two
cases.  Missing: words with the opcode and function code of `cbo.zero` or of the shadow-stack instructions, where other
bits are at fault. -/
theorem C81_opcode32_partial (w : BitVec 32) (isa : Isa) (h : U32.decode w isa = .err .InvalidOpcode) :
    (∀ (w' : BitVec 32) (isa' : Isa), fld w'.toNat 6 0 = fld w.toNat 6 0 →
      U32.decode w' isa' = .err .InvalidOpcode) ∨
    (fld w.toNat 6 0 = 0x0f ∧ fld w.toNat 14 12 = 2) ∨ (fld w.toNat 6 0 = 0x73 ∧ fld w.toNat 14 12 = 4) := by
  rcases (decode32_err_iff w isa _).1 h with h | h | h
  · exact .inl fun w' isa' h0 => (decode32_err_iff _ _ _).2 (.inl (h0 ▸ h))
  · exact .inr (.inl ⟨h.1, h.2.1⟩)
  · exact .inr (.inr ⟨h.1, h.2.1⟩)

example : U32.decode 0x0000100f#32 .Rv32 = .err .UnknownExtension := rfl
example : U32.decode 0x00000007#32 .Rv32 = .err .InvalidOpcode := rfl
example : U16.decode 0x2000#16 .Rv32 = .err .InvalidOpcode := rfl

/-- C81 is false of `InvalidOpcode`: the words of `cbo.inval` and `cbo.zero` have the same opcode, and the decoder
knows the second. -/
theorem C81_opcode32_refuted : ¬ ∀ (w : BitVec 32) (isa : Isa), U32.decode w isa = .err .InvalidOpcode →
    ∀ (w' : BitVec 32) (isa' : Isa) (i : Instruction), fld w'.toNat 6 0 = fld w.toNat 6 0 →
      U32.decode w' isa' ≠ .ok i := by
  intro h
  obtain ⟨i, hi, _⟩ := (decode32_accepts 0x0040200f#32 .Rv64 (.Zicboz .CBO_ZERO)).2
    ⟨by simp [gated64], by decide, by decide, by decide, by decide⟩
  exact h 0x0000200f#32 .Rv64 ((decode32_err_iff _ _ _).2 (.inr (.inl (by decide)))) _ _ i (by decide) hi

/-- C81, `InvalidOpcode` of halfwords: no halfword with the same opcode (bits 1..0 and 15..13) decodes, under either ISA,
except in one case.  Missing: the forms next to `c.subw` and `c.addw` that only extensions unknown to the decoder
use. -/
theorem C81_opcode16_partial (w : BitVec 16) (isa : Isa) (h : U16.decode w isa = .err .InvalidOpcode) :
    (∀ (w' : BitVec 16) (isa' : Isa), fld w'.toNat 1 0 = fld w.toNat 1 0 →
      fld w'.toNat 15 13 = fld w.toNat 15 13 → U16.decode w' isa' = .err .InvalidOpcode) ∨
    (fld w.toNat 1 0 = 1 ∧ fld w.toNat 15 13 = 4 ∧ fld w.toNat 12 10 = 7 ∧ 2 ≤ fld w.toNat 6 5) := by
  have q : ∀ {a b : Nat}, quad w.toNat a b → ∀ w' : BitVec 16, fld w'.toNat 1 0 = fld w.toNat 1 0 →
      fld w'.toNat 15 13 = fld w.toNat 15 13 → quad w'.toNat a b :=
    fun h w' h0 h1 => ⟨h0.trans h.1, h1.trans h.2⟩
  rcases (decode16_err_iff w isa _).1 h with h | h | h | h | h | h | h
  · exact .inl fun w' isa' h0 h1 => (decode16_err_iff _ _ _).2 (.inl (h0.trans h))
  · exact .inl fun w' isa' h0 h1 => (decode16_err_iff _ _ _).2 (.inr (.inl (q h w' h0 h1)))
  · exact .inl fun w' isa' h0 h1 => (decode16_err_iff _ _ _).2 (.inr (.inr (.inl (q h w' h0 h1))))
  · exact .inl fun w' isa' h0 h1 => (decode16_err_iff _ _ _).2 (.inr (.inr (.inr (.inl (q h w' h0 h1)))))
  · exact .inl fun w' isa' h0 h1 => (decode16_err_iff _ _ _).2 (.inr (.inr (.inr (.inr (.inl (q h w' h0 h1))))))
  · exact .inl fun w' isa' h0 h1 =>
      (decode16_err_iff _ _ _).2 (.inr (.inr (.inr (.inr (.inr (.inl (q h w' h0 h1)))))))
  · refine .inr ⟨h.1.1, h.1.2, ?_, h.2.2.2⟩
    have h1 := h.2.1
    have h2 := h.2.2.1
    simp only [fld] at h1 h2 ⊢
    omega

/-- C81 is false of `InvalidOpcode` of halfwords: `c.mul` (of Zcb) and `c.addw` differ in bits 6..5 only. -/
theorem C81_opcode16_refuted : ¬ ∀ (w : BitVec 16) (isa : Isa), U16.decode w isa = .err .InvalidOpcode →
    ∀ (w' : BitVec 16) (isa' : Isa) (i : Instruction), fld w'.toNat 1 0 = fld w.toNat 1 0 →
      fld w'.toNat 15 13 = fld w.toNat 15 13 → U16.decode w' isa' ≠ .ok i := by
  intro h
  obtain ⟨i, hi, _⟩ := (decode16_accepts 0x9c21#16 .Rv64 (.C .ADDW)).2
    ⟨by decide, by decide, by decide, by decide, rfl⟩
  refine h 0x9c41#16 .Rv64 ((decode16_err_iff _ _ _).2 ?_) _ _ i (by decide) (by decide) hi
  exact .inr (.inr (.inr (.inr (.inr (.inr ⟨by decide, by decide, by decide, by decide⟩)))))

/-! ## ISA and the zero halfword -/

/-- C81, `OnlyRv64Inst`: the ISA is RV32, and under RV64 the same bits decode. -/
theorem C81_isa_partial :
    (∀ (w : BitVec 32) (isa : Isa), U32.decode w isa = .err .OnlyRv64Inst →
      isa = .Rv32 ∧ ∃ i, U32.decode w .Rv64 = .ok i) ∧
    (∀ (w : BitVec 16) (isa : Isa), U16.decode w isa = .err .OnlyRv64Inst →
      isa = .Rv32 ∧ ∃ i, U16.decode w .Rv64 = .ok i) := by
  constructor
  · intro w isa h
    obtain ⟨rfl, op, _, ha⟩ := (decode32_err_iff w isa _).1 h
    exact ⟨rfl, ((decode32_accepts w _ op).2 ha).imp fun _ h => h.1⟩
  · intro w isa h
    obtain ⟨rfl, hr⟩ := (decode16_err_iff w isa _).1 h
    refine ⟨rfl, ?_⟩
    have ok : ∀ op, accepts16 .Rv64 w.toNat op → ∃ i, U16.decode w .Rv64 = .ok i :=
      fun op ha => ((decode16_accepts w _ op).2 ha).imp fun _ h => h.1
    rcases hr with h | h | h | h | h
    · exact ok (.C .LD) ⟨h, rfl⟩
    · exact ok (.C .SD) ⟨h, rfl⟩
    · exact ok (.C .LDSP) ⟨h, rfl⟩
    · exact ok (.C .SDSP) ⟨h, rfl⟩
    · obtain ⟨hq, h1, h2, h3⟩ := h
      rcases (by omega : fld w.toNat 6 5 = 0 ∨ fld w.toNat 6 5 = 1) with h3 | h3
      · exact ok (.C .SUBW) ⟨hq, h1, h2, h3, rfl⟩
      · exact ok (.C .ADDW) ⟨hq, h1, h2, h3, rfl⟩

example : U32.decode 0x00003003#32 .Rv32 = .err .OnlyRv64Inst := rfl
example : U16.decode 0x6000#16 .Rv32 = .err .OnlyRv64Inst := rfl

/-- C81, `IllegalInstruction`: never for a word, and for a halfword exactly if all its bits are zero. -/
theorem C81_illegal_partial :
    (∀ (w : BitVec 32) (isa : Isa), U32.decode w isa ≠ .err .IllegalInstruction) ∧
    (∀ (w : BitVec 16) (isa : Isa), U16.decode w isa = .err .IllegalInstruction ↔ w = 0#16) := by
  refine ⟨fun w isa h => (decode32_err_iff w isa _).1 h, fun w isa => ?_⟩
  rw [decode16_err_iff]
  exact ⟨fun h => BitVec.eq_of_toNat_eq h, fun h => by rw [h]; rfl⟩

/-! ## The two errors about lengths -/

/-- The error of a result. -/
def RustM.error? {α : Type} : RustM α → Option DecodingError
  | .err e => some e
  | _ => none

/-- C81, `Not16BitInst` and `Not32BitInst`: only the methods that read operands return them.  Those of `u32`, which
expect a 32-bit instruction, return `Not32BitInst`, and the opcode is a compressed one; those of `u16`, which expect a
compressed instruction, return `Not16BitInst`, and the opcode is that of a 32-bit instruction.  So each error has the
meaning that is written at the other. -/
theorem C81_lengths_partial (w : BitVec 32) (h : BitVec 16) (op : OpcodeKind) (isa : Isa) (e : DecodingError) :
    (some e ∈ [(U32.parse_rd w op).error?, (U32.parse_rs1 w op).error?, (U32.parse_rs2 w op).error?,
        (U32.parse_imm w op isa).error?] ↔ e = .Not32BitInst ∧ ∃ o, op = .C o) ∧
    (some e ∈ [(U16.parse_rd h op).error?, (U16.parse_rs1 h op).error?, (U16.parse_rs2 h op).error?,
        (U16.parse_imm h op isa).error?] ↔ e = .Not16BitInst ∧ (∀ o, op ≠ .C o) ∧ ∀ o, op ≠ .Zicfiss o) ∧
    (e = .Not16BitInst ∨ e = .Not32BitInst → U32.decode w isa ≠ .err e ∧ U16.decode h isa ≠ .err e) := by
  obtain ⟨a1, a2, a3⟩ := C26_parse32 w op isa
  obtain ⟨b1, b2, b3⟩ := C26_parse16 h op isa
  refine ⟨?_, ?_, ?_⟩
  · by_cases hc : ∃ o, op = .C o
    · obtain ⟨o, ho⟩ := hc
      obtain ⟨h1, h2, h3, h4⟩ := a1 o ho
      rw [h1, h2, h3, h4]
      simp [RustM.error?, ho]
    · have hc' : ∀ o, op ≠ .C o := fun o ho => hc ⟨o, ho⟩
      by_cases hz : zicfissC op
      · obtain ⟨h1, h2, h3, h4⟩ := a2 hz
        rw [h1, h2, h3, h4]
        simp [RustM.error?, hc']
      · obtain ⟨_, _, _, _, h1, h2, h3, h4⟩ := a3 hc' hz
        rw [h1, h2, h3, h4]
        simp [RustM.error?, hc']
  · by_cases hc : (∃ o, op = .C o) ∨ zicfissC op
    · obtain ⟨_, _, _, _, h1, h2, h3, h4⟩ := b1 hc
      rw [h1, h2, h3, h4]
      have : ¬ ((∀ o, op ≠ .C o) ∧ ∀ o, op ≠ .Zicfiss o) := by
        rintro ⟨x, y⟩
        rcases hc with ⟨o, ho⟩ | ho
        · exact x o ho
        · rcases ho with ho | ho <;> exact y _ ho
      simp [RustM.error?]
      intro _ x
      simpa using fun y => this ⟨x, y⟩
    · have hc' : ∀ o, op ≠ .C o := fun o ho => hc (.inl ⟨o, ho⟩)
      by_cases hz : ∃ o, op = .Zicfiss o
      · obtain ⟨o, ho⟩ := hz
        obtain ⟨h1, h2, h3, h4⟩ := b2 o ho (fun z => hc (.inr z))
        rw [h1, h2, h3, h4]
        simp [RustM.error?, ho]
      · have hz' : ∀ o, op ≠ .Zicfiss o := fun o ho => hz ⟨o, ho⟩
        obtain ⟨h1, h2, h3, h4⟩ := b3 hc' hz'
        rw [h1, h2, h3, h4]
        simp [RustM.error?, hc', hz']
  · rintro (rfl | rfl) <;>
      exact ⟨fun h => (decode32_err_iff _ _ _).1 h, fun h => (decode16_err_iff _ _ _).1 h⟩

/-- C81 is false of `Not16BitInst`, which is documented as what is returned where a 32-bit instruction is expected and
the instruction is compressed: reading the destination of an `add` from a halfword returns it.  Likewise of
`Not32BitInst`. -/
theorem C81_lengths_refuted :
    (¬ ∀ (h : BitVec 16) (op : OpcodeKind), U16.parse_rd h op = .err .Not16BitInst → ∃ o, op = .C o) ∧
    (¬ ∀ (w : BitVec 32) (op : OpcodeKind), U32.parse_rd w op = .err .Not32BitInst → ∀ o, op ≠ .C o) := by
  refine ⟨fun h => ?_, fun h => h 0#32 (.C .NOP) rfl _ rfl⟩
  obtain ⟨o, ho⟩ := h 0#16 (.BaseI .ADD) rfl
  exact OpcodeKind.noConfusion ho

open Source

/-- C81.  For all lines: documentation belongs to the line below it, of several lines of it the last counts, a line with
no documentation directly above it has none, and nothing behind the closing brace is read. -/
theorem C81_reader {head d e l m c : List Nat} {t u : List Nat} (hd : docLine d = some t) (he : docLine e = some u)
    (hl : docLine l = none) (hm : docLine m = none) (hc : docLine c = none) (hl' : (trim l).head? ≠ some 125)
    (hm' : (trim m).head? ≠ some 125) (hc' : (trim c).head? = some 125) (rest : List (List Nat)) :
    documented head (head :: d :: e :: l :: m :: c :: rest) = [(trim l, u), (trim m, [])] := by
  have hh : sameText head head = true := by
    induction head with
    | nil => rfl
    | cons _ _ ih => rw [sameText, ih, Nat.beq_refl]; rfl
  have other {x d : List Nat} (ls : List (List Nat)) (hx : docLine x = none) (hx' : (trim x).head? ≠ some 125) :
      documentedFrom (x :: ls) d = (trim x, d) :: documentedFrom ls [] := by
    rw [documentedFrom, hx]
    split
    · rename_i h; cases h
    · rename_i _ h; rw [h] at hx'; exact absurd rfl hx'
    · rfl
  have close : documentedFrom (c :: rest) [] = [] := by
    rw [documentedFrom, hc]
    split
    · rename_i h; cases h
    · rfl
    · rename_i h
      cases hx : trim c with
      | nil => rw [hx] at hc'; cases hc'
      | cons a b => rw [hx] at hc'; cases hc'; exact absurd hx (h _)
  have doc {x d t : List Nat} (ls : List (List Nat)) (hx : docLine x = some t) :
      documentedFrom (x :: ls) d = documentedFrom ls t := by
    rw [documentedFrom, hx]
  rw [documented, hh]
  show documentedFrom _ _ = _
  rw [doc _ hd, doc _ he, other _ hl hl', other _ hm hm', close]

example : documented (codes "enum E {") (["enum E {", "  /// One.", "  /// Two.", "  A,", "  B,", "}"].map codes) =
    [(codes "A,", codes "Two."), (codes "B,", [])] :=
  C81_reader (d := codes "  /// One.") (t := codes "One.") rfl rfl rfl rfl rfl (by decide) (by decide) rfl []

end Raki
