import Verif.Props.CountValues
import Verif.Props.Display
/-!
# How many different texts are printed

Of the words chosen in `Verif.Props.CanonWords` those are kept whose operands that are not printed are zero.  There is
one for each text.
-/

namespace Raki

open Spec

/-- The text depends on the operands that are shown only. -/
theorem isText_of_shown {i j : Instruction} (ho : i.opc = j.opc) (h : ∀ x ∈ shown i.opc, sameOperand i j x) {s : String}
    (ht : isText i s) : isText j s := by
  obtain ⟨as, ss, ha, hs, rfl⟩ := ht
  refine ⟨as, ss, ho ▸ ha, ?_, by rw [ho]⟩
  have h' : ∀ a ∈ as, ∀ x ∈ a.shows, sameOperand i j x := by
    intro a hm x hx
    refine h x ?_
    rw [shown, ha]
    exact List.mem_flatMap.2 ⟨a, hm, hx⟩
  clear ha h
  induction as generalizing ss with
  | nil => cases ss <;> exact hs
  | cons a as ih =>
    cases ss with
    | nil => exact hs
    | cons t ss =>
      refine ⟨?_, ih ss hs.2 fun b hb => h' b (List.mem_cons_of_mem _ hb)⟩
      have h1 := h' a List.mem_cons_self
      have h2 := hs.1
      cases a <;> simp only [Arg.shows, List.mem_cons, List.not_mem_nil, or_false, forall_eq_or_imp, forall_eq,
        sameOperand] at h1 <;> simp only [argText, h1] at h2 ⊢ <;> exact h2

/-- The fields that are printed for a format that hides an operand. -/
def textFields : Fmt32 → List (Nat × Nat)
  | .ShX | .ShW | .Lr => [(11, 7), (19, 15)]
  | .Amo => [(11, 7), (19, 15), (24, 20)]
  | _ => []

/-- The words with a row's fixed bits, and zero for the operands that are not printed. -/
def textCube (r : Row) : Cube :=
  let m : Slot := .isIn [r.major]
  let f : Slot := .isIn [r.f3]
  let z : Slot := .isIn [0]
  match r.fmt with
  | .Amo => cube32 m .any f .any (top7 .any (.isIn [4 * r.code]))
  | .Lr => cube32 m .any f .any (top7 z (.isIn [4 * r.code]))
  | .Fence => cube32 m z f z (top7 z z)
  | .SsPush => cube32 m z f z (top12 (.isIn [0xce1]))
  | _ => cube32 m .any f .any (top7 z (.isIn [r.code]))

/-- The words chosen for the texts of an opcode. -/
def textRegion32 (isa : Isa) (op : OpcodeKind) : Region :=
  match gated64 op, isa, args op, lossy op, row32 op with
  | true, .Rv32, _, _, _ => []
  | _, _, none, _, _ => []
  | _, _, _, true, some r => [textCube r]
  | _, _, _, _, _ => canon32 isa op

theorem textRegion32_lossless {isa : Isa} {op : OpcodeKind} (ha : args op ≠ none) (hl : lossy op = false) :
    textRegion32 isa op = canon32 isa op := by
  cases isa <;> (rcases op with o | o | o | o | o | o | o | o | o | o) <;> cases o <;>
    first | rfl | exact absurd rfl ha | cases hl

theorem textRegion32_none {isa : Isa} {op : OpcodeKind} (ha : args op = none) : textRegion32 isa op = [] := by
  cases isa <;> (rcases op with o | o | o | o | o | o | o | o | o | o) <;> cases o <;> first | rfl | cases ha

theorem gated_none {op : OpcodeKind} (hg : gated64 op = true) (n : Nat) : ¬ accepts32 .Rv32 n op := by
  rw [← region32_has]
  simp only [region32, hg, region_nil, not_false_eq_true]

/-- What the chosen words of an opcode that hides an operand look like. -/
theorem textRegion32_lossy {isa : Isa} {op : OpcodeKind} {r : Row} (hl : lossy op = true) (hr : row32 op = some r)
    (hg : ¬ (gated64 op = true ∧ isa = .Rv32)) : textRegion32 isa op = [textCube r] := by
  cases isa <;> (rcases op with o | o | o | o | o | o | o | o | o | o) <;> cases o <;>
    first | (cases hl; done) | (cases hr; done) | (cases hr; rfl) | exact absurd ⟨rfl, rfl⟩ hg

/-- The formats that hide an operand. -/
def hides : Fmt32 → Bool
  | .ShX | .ShW | .Amo | .Lr | .Fence | .SsPush => true
  | _ => false

theorem lossy_hides {op : OpcodeKind} {r : Row} (hl : lossy op = true) (hr : row32 op = some r) :
    hides r.fmt = true := by
  rcases op with o | o | o | o | o | o | o | o | o | o <;> cases o <;>
    first | (cases hl; done) | (cases hr; done) | (cases hr; rfl)

theorem textCube_inj (r : Row) (hf : hides r.fmt = true) (n m : Nat) (hn : n < 2 ^ 32) (hm : m < 2 ^ 32)
    (h1 : Cube.has (textCube r) n = true) (h2 : Cube.has (textCube r) m = true)
    (h : ∀ p ∈ textFields r.fmt, fld n p.1 p.2 = fld m p.1 p.2) : n = m := by
  obtain ⟨a1, a2, a3, a4, a5, a6⟩ := fields_top n
  obtain ⟨b1, b2, b3, b4, b5, b6⟩ := fields_top m
  have ln := fields_lt n
  have lm := fields_lt m
  refine fields_eq hn hm ?_
  obtain ⟨g, ma, f3, c⟩ := r
  cases g <;> first | (cases hf; done) | skip
  all_goals
    simp only [textCube, has_top12, has_top7, isIn_has, any_has, List.mem_cons, List.not_mem_nil, or_false,
      true_and] at h1 h2
    try simp only [textFields, List.mem_cons, List.not_mem_nil, or_false, forall_eq_or_imp, forall_eq,
      false_imp_iff, implies_true] at h
    refine ⟨?_, ?_, ?_, ?_, ?_, ?_⟩ <;> omega

/-- The fields 11..7, 14..12, 19..15, 24..20 and 31..25 of the chosen word. -/
def textParts (n code : Nat) : Fmt32 → Nat × Nat × Nat × Nat × Nat
  | .Amo => (fld n 11 7, fld n 14 12, fld n 19 15, fld n 24 20, fld n 31 27 * 4)
  | .Lr => (fld n 11 7, fld n 14 12, fld n 19 15, 0, fld n 31 27 * 4)
  | .Fence => (0, fld n 14 12, 0, 0, 0)
  | .SsPush => (0, fld n 14 12, 0, 1, 0x67)
  | _ => (fld n 11 7, fld n 14 12, fld n 19 15, 0, code % 128)

theorem text_word (n code : Nat) (f : Fmt32) : ∃ m, m < 2 ^ 32 ∧ fld m 6 0 = fld n 6 0 ∧
    textParts n code f = (fld m 11 7, fld m 14 12, fld m 19 15, fld m 24 20, fld m 31 25) := by
  have l := fields_lt n
  have t := fields_top n
  have b : (textParts n code f).1 < 32 ∧ (textParts n code f).2.1 < 8 ∧ (textParts n code f).2.2.1 < 32 ∧
      (textParts n code f).2.2.2.1 < 32 ∧ (textParts n code f).2.2.2.2 < 128 := by
    unfold textParts
    split <;> refine ⟨?_, ?_, ?_, ?_, ?_⟩ <;> dsimp only <;> omega
  have h := mk6_fields l.1 b.1 b.2.1 b.2.2.1 b.2.2.2.1 b.2.2.2.2
  exact ⟨_, h.1, h.2.1, by rw [h.2.2.1, h.2.2.2.1, h.2.2.2.2.1, h.2.2.2.2.2.1, h.2.2.2.2.2.2]⟩

/-- Every accepted word has the printed fields of a chosen word. -/
theorem textCube_exists {isa : Isa} {op : OpcodeKind} {r : Row} (hl : lossy op = true) (hr : row32 op = some r)
    (hg : ¬ (gated64 op = true ∧ isa = .Rv32)) (n : Nat) (h : Region.has (region32 isa op) n = true) :
    ∃ m, m < 2 ^ 32 ∧ Cube.has (textCube r) m = true ∧
      ∀ p ∈ textFields r.fmt, fld m p.1 p.2 = fld n p.1 p.2 := by
  have l := fields_lt n
  obtain ⟨t1, t2, t3, t4, t5, t6⟩ := fields_top n
  obtain ⟨m, hm, m1, m2⟩ := text_word n r.code r.fmt
  have t7 := (fields_top m).1
  refine ⟨m, hm, ?_⟩
  clear hm
  cases isa <;> (rcases op with o | o | o | o | o | o | o | o | o | o) <;> cases o <;>
    first | (cases hl; done) | (cases hr; done) | exact absurd ⟨rfl, rfl⟩ hg | skip
  all_goals
    cases hr
    clear hl hg
    simp only [textParts, Prod.mk.injEq] at m2
    simp only [region32, gated64, row32, cubeOf, region_cons, region_nil, has_top12, has_top7, has_top6, has_top5,
      isIn_has, any_has, List.mem_cons, List.not_mem_nil, or_false, true_and, and_true] at h
    simp only [textCube, has_top12, has_top7, isIn_has, any_has, List.mem_cons, List.not_mem_nil, or_false,
      true_and, textFields, forall_eq_or_imp, forall_eq, false_imp_iff, implies_true, and_true]
    omega

theorem textCube_region {isa : Isa} {op : OpcodeKind} {r : Row} (hl : lossy op = true) (hr : row32 op = some r)
    (hg : ¬ (gated64 op = true ∧ isa = .Rv32)) (n : Nat) (h : Cube.has (textCube r) n = true) :
    Region.has (region32 isa op) n = true := by
  have l := fields_lt n
  obtain ⟨t1, t2, t3, t4, t5, t6⟩ := fields_top n
  cases isa <;> (rcases op with o | o | o | o | o | o | o | o | o | o) <;> cases o <;>
    first | (cases hl; done) | (cases hr; done) | exact absurd ⟨rfl, rfl⟩ hg | skip
  all_goals
    cases hr
    simp only [textCube, has_top12, has_top7, isIn_has, any_has, List.mem_cons, List.not_mem_nil, or_false,
      true_and] at h
    simp only [region32, gated64, row32, cubeOf, region_cons, region_nil, has_top12, has_top7, has_top6, has_top5,
      isIn_has, any_has, List.mem_cons, List.not_mem_nil, or_false, true_and, and_true]
    omega

/-- For an opcode that hides an operand the printed fields are the operands that are shown. -/
theorem shown_fields {isa : Isa} {op : OpcodeKind} {r : Row} (hl : lossy op = true) (hr : row32 op = some r)
    (n m : Nat) : (∀ x ∈ shown op, sameOperand (value32 isa n op r.fmt) (value32 isa m op r.fmt) x) ↔
      ∀ p ∈ textFields r.fmt, fld n p.1 p.2 = fld m p.1 p.2 := by
  rcases op with o | o | o | o | o | o | o | o | o | o <;> cases o <;>
    first | (cases hl; done) | (cases hr; done) | skip
  all_goals
    cases hr
    simp [shown, args, Arg.shows, sameOperand, value32, rd32, rs132, rs232, textFields]

/-- The text of the instruction that a 32-bit word is decoded as. -/
def textOf32 (isa : Isa) (n : Nat) : Option String :=
  match U32.decode (BitVec.ofNat 32 n) isa with
  | .ok i => (match i.fmt with
    | .ok s => some s
    | _ => none)
  | _ => none

/-- The text of the instruction that a halfword is decoded as. -/
def textOf16 (isa : Isa) (n : Nat) : Option String :=
  match U16.decode (BitVec.ofNat 16 n) isa with
  | .ok i => (match i.fmt with
    | .ok s => some s
    | _ => none)
  | _ => none

theorem textOf32_iff {isa : Isa} {n : Nat} {s : String} :
    textOf32 isa n = some s ↔ ∃ i, U32.decode (BitVec.ofNat 32 n) isa = .ok i ∧ i.fmt = .ok s := by
  rw [textOf32]
  cases U32.decode (BitVec.ofNat 32 n) isa with
  | ok i => cases h : i.fmt <;> simp [h]
  | _ => simp

theorem textOf16_iff {isa : Isa} {n : Nat} {s : String} :
    textOf16 isa n = some s ↔ ∃ i, U16.decode (BitVec.ofNat 16 n) isa = .ok i ∧ i.fmt = .ok s := by
  rw [textOf16]
  cases U16.decode (BitVec.ofNat 16 n) isa with
  | ok i => cases h : i.fmt <;> simp [h]
  | _ => simp

theorem textRegion_accepts {isa : Isa} {op : OpcodeKind} {n : Nat} (h : (textRegion32 isa op).has n = true) :
    accepts32 isa n op ∧ args op ≠ none := by
  by_cases ha : args op = none
  · rw [textRegion32_none ha, region_nil] at h
    exact h.elim
  refine ⟨?_, ha⟩
  by_cases hl : lossy op = true
  · by_cases hg : gated64 op = true ∧ isa = .Rv32
    · obtain ⟨hg, rfl⟩ := hg
      simp only [textRegion32, hg, region_nil] at h
    cases hr : row32 op with
    | none =>
      simp only [textRegion32, hr, hl] at h
      revert h
      split <;> intro h
      · simp [region_nil] at h
      · simp [region_nil] at h
      · contradiction
      · exact canon_accepts h
    | some r =>
      rw [textRegion32_lossy hl hr hg, region_one] at h
      exact (region32_has ..).1 (textCube_region hl hr hg n h)
  · rw [textRegion32_lossless ha (by simpa using hl)] at h
    exact canon_accepts h

theorem accepts_value {isa : Isa} {op : OpcodeKind} {n : Nat} (hn : n < 2 ^ 32) (h : accepts32 isa n op) :
    ∃ i, U32.decode (BitVec.ofNat 32 n) isa = .ok i ∧ i.opc = op := by
  have h := (opcodeOf32_iff hn).2 h
  rw [opcodeOf32] at h
  cases e : U32.decode (BitVec.ofNat 32 n) isa with
  | ok i => exact ⟨i, rfl, by simpa [e] using h⟩
  | err _ => simp [e] at h
  | panic => simp [e] at h

/-- Two chosen words with the same text are the same word. -/
theorem texts_inj {isa : Isa} {op : OpcodeKind} {n m : Nat} {s : String} (hn : n < 2 ^ 32) (hm : m < 2 ^ 32)
    (pn : (textRegion32 isa op).has n = true) (pm : (textRegion32 isa op).has m = true)
    (hvn : textOf32 isa n = some s) (hvm : textOf32 isa m = some s) : n = m := by
  obtain ⟨i, hi, hti⟩ := textOf32_iff.1 hvn
  obtain ⟨j, hj, htj⟩ := textOf32_iff.1 hvm
  obtain ⟨an, ha⟩ := textRegion_accepts pn
  obtain ⟨am, -⟩ := textRegion_accepts pm
  have ei : i.opc = op := by
    obtain ⟨i', h1, h2⟩ := accepts_value hn an
    rw [hi] at h1
    cases h1
    exact h2
  have ej : j.opc = op := by
    obtain ⟨i', h1, h2⟩ := accepts_value hm am
    rw [hj] at h1
    cases h1
    exact h2
  obtain ⟨r, hr, -, vi⟩ := (decode32_ok_iff ..).1 hi
  obtain ⟨r', hr', -, vj⟩ := (decode32_ok_iff ..).1 hj
  rw [BitVec.toNat_ofNat, Nat.mod_eq_of_lt hn] at vi
  rw [BitVec.toNat_ofNat, Nat.mod_eq_of_lt hm] at vj
  rw [ei] at hr vi
  rw [ej] at hr' vj
  rw [hr] at hr'
  cases hr'
  by_cases hl : lossy op = true
  · have hs := (C36_text_determines i j (.inl ⟨_, _, hi⟩) (.inl ⟨_, _, hj⟩) s hti htj).2
    rw [ei, vi, vj, shown_fields hl hr] at hs
    have hg : ¬ (gated64 op = true ∧ isa = .Rv32) := by
      rintro ⟨hg, rfl⟩
      exact gated_none hg _ an
    rw [textRegion32_lossy hl hr hg, region_one] at pn pm
    exact textCube_inj r (lossy_hides hl hr) n m hn hm pn pm hs
  · have hl : lossy op = false := by simpa using hl
    have e := C36_lossless i j (.inl ⟨_, _, hi⟩) (.inl ⟨_, _, hj⟩) s hti htj (ei ▸ hl)
    subst e
    rw [textRegion32_lossless ha hl] at pn pm
    have h := ((C44_same_value_iff _ _ isa i r hj (ei ▸ hr)).1 hi).2
    simp only [BitVec.toNat_ofNat, Nat.mod_eq_of_lt hn, Nat.mod_eq_of_lt hm] at h
    exact canon32_inj isa op r hr n m hn hm pn pm h

theorem textRegions_ok (isa : Isa) (op : OpcodeKind) : (textRegion32 isa op).ok 32 = true := by
  have h : (allOpcodes.all fun op => [Isa.Rv32, .Rv64].all fun isa => (textRegion32 isa op).ok 32) = true := by
    decide +kernel
  exact List.all_eq_true.1 (List.all_eq_true.1 h op (allOpcodes_mem op)) isa (by cases isa <;> simp)

theorem texts32_list (isa : Isa) (op : OpcodeKind) : ∃ l : List String, l.Nodup ∧
    (∀ s, s ∈ l ↔ ∃ w i, U32.decode w isa = .ok i ∧ i.opc = op ∧ i.fmt = .ok s) ∧
    l.length = (textRegion32 isa op).size := by
  obtain ⟨l, hl, hm, hc⟩ := list_of_values (2 ^ 32) (textRegion32 isa op).has (textOf32 isa)
    (fun n hn h => by
      obtain ⟨h1, h2⟩ := textRegion_accepts h
      obtain ⟨i, hi, rfl⟩ := accepts_value hn h1
      obtain ⟨s, hs, -⟩ := C33_text_exists i (.inl ⟨_, _, hi⟩) h2
      rw [textOf32_iff.2 ⟨i, hi, hs⟩]
      rfl)
    (fun n m s hn hm pn pm => texts_inj hn hm pn pm)
  refine ⟨l, hl, fun s => ?_, hc.trans (region_count _ (textRegions_ok isa op))⟩
  rw [hm]
  constructor
  · intro ⟨n, hn, pn, hv⟩
    obtain ⟨i, hi, hs⟩ := textOf32_iff.1 hv
    obtain ⟨i', h1, h2⟩ := accepts_value hn (textRegion_accepts pn).1
    rw [hi] at h1
    cases h1
    exact ⟨_, i, hi, h2, hs⟩
  · rintro ⟨w, i, hw, rfl, hs⟩
    obtain ⟨r, hr, ha, vi⟩ := (decode32_ok_iff ..).1 hw
    have hp : args i.opc ≠ none := by
      obtain ⟨as, ss, ha, -⟩ := (C33_text i (.inl ⟨_, _, hw⟩) s).1 hs
      rw [ha]
      exact Option.some_ne_none _
    by_cases hl : lossy i.opc = true
    · have hg : ¬ (gated64 i.opc = true ∧ isa = .Rv32) := by
        rintro ⟨hg, rfl⟩
        exact gated_none hg _ ha
      obtain ⟨m, hm, pm, he⟩ := textCube_exists hl hr hg w.toNat ((region32_has ..).2 ha)
      have pm' : (textRegion32 isa i.opc).has m = true := by rwa [textRegion32_lossy hl hr hg, region_one]
      obtain ⟨j, hj, ej⟩ := accepts_value hm (textRegion_accepts pm').1
      refine ⟨m, hm, pm', textOf32_iff.2 ⟨j, hj, ?_⟩⟩
      obtain ⟨r', hr', -, vj⟩ := (decode32_ok_iff ..).1 hj
      rw [BitVec.toNat_ofNat, Nat.mod_eq_of_lt hm, ej] at vj
      rw [ej, hr] at hr'
      cases hr'
      refine (C33_text j (.inl ⟨_, _, hj⟩) s).2 (isText_of_shown ej.symm ?_ ((C33_text i (.inl ⟨_, _, hw⟩) s).1 hs))
      have k := (shown_fields (isa := isa) hl hr w.toNat m).2 fun p hp => (he p hp).symm
      rwa [← vi, ← vj] at k
    · have hl : lossy i.opc = false := by simpa using hl
      obtain ⟨m, hm, pm, he⟩ := canon32_exists isa i.opc r hr w.toNat w.isLt ((region32_has ..).2 ha)
      refine ⟨m, hm, by rwa [textRegion32_lossless hp hl], textOf32_iff.2 ⟨i, ?_, hs⟩⟩
      refine (C44_same_value_iff w _ isa i r hw hr).2 ?_
      rw [BitVec.toNat_ofNat, Nat.mod_eq_of_lt hm]
      exact ⟨canon_accepts pm, he⟩

/-- The halfwords chosen for the texts of an opcode. -/
def textRegion16 (isa : Isa) (op : OpcodeKind) : Region :=
  match op with
  | .C .NOP => [cube16 1 0 (.isIn [0]) (.isIn [0]) (.isIn [0])]
  | .Zicfiss _ => []
  | op => canon16 isa op

theorem textRegions16_ok (isa : Isa) (op : OpcodeKind) : (textRegion16 isa op).ok 16 = true := by
  have h : (allOpcodes.all fun op => [Isa.Rv32, .Rv64].all fun isa => (textRegion16 isa op).ok 16) = true := by
    decide +kernel
  exact List.all_eq_true.1 (List.all_eq_true.1 h op (allOpcodes_mem op)) isa (by cases isa <;> simp)

theorem textRegion16_nop {isa : Isa} {n : Nat} (hn : n < 2 ^ 16) :
    (textRegion16 isa (.C .NOP)).has n = true ↔ n = 1 := by
  simp only [textRegion16, cube16, region_cons, region_nil, Cube.has, Bool.and_eq_true, isIn_has, List.mem_singleton,
    or_false, Nat.div_div_eq_div_mul, and_true]
  omega

theorem textRegion16_same {isa : Isa} {op : OpcodeKind} (h : op ≠ .C .NOP) (hz : ∀ o, op ≠ .Zicfiss o) :
    textRegion16 isa op = canon16 isa op := by
  unfold textRegion16
  split
  · contradiction
  · exact absurd rfl (hz _)
  · rfl

theorem accepts_value16 {isa : Isa} {op : OpcodeKind} {n : Nat} (hn : n < 2 ^ 16) (h : accepts16 isa n op) :
    ∃ i, U16.decode (BitVec.ofNat 16 n) isa = .ok i ∧ i.opc = op := by
  have h := (opcodeOf16_iff hn).2 h
  rw [opcodeOf16] at h
  cases e : U16.decode (BitVec.ofNat 16 n) isa with
  | ok i => exact ⟨i, rfl, by simpa [e] using h⟩
  | err _ => simp [e] at h
  | panic => simp [e] at h

theorem textRegion16_accepts {isa : Isa} {op : OpcodeKind} {n : Nat} (hn : n < 2 ^ 16)
    (h : (textRegion16 isa op).has n = true) : accepts16 isa n op ∧ ∀ o, op ≠ .Zicfiss o := by
  by_cases hz : ∃ o, op = .Zicfiss o
  · obtain ⟨o, rfl⟩ := hz
    simp only [textRegion16, region_nil] at h
  refine ⟨?_, fun o e => hz ⟨o, e⟩⟩
  by_cases hb : op = .C .NOP
  · subst hb
    rw [textRegion16_nop hn] at h
    subst h
    exact (opcodeOf16_iff hn).1 (by cases isa <;> decide +kernel)
  · rw [textRegion16_same hb fun o e => hz ⟨o, e⟩] at h
    exact canon16_accepts hn h

/-- The halfwords are printed unless they are of the shadow stack. -/
theorem printed16 {h : BitVec 16} {isa : Isa} {i : Instruction} (hi : U16.decode h isa = .ok i) :
    args i.opc = none ↔ ∃ o, i.opc = .Zicfiss o := by
  rcases (C27_metadata16 h isa i hi).2.2.1 with ⟨o, e⟩ | e | e <;> rw [e]
  · cases o <;> simp [args]
  · simp [args]
  · simp [args]

theorem lossy16 {h : BitVec 16} {isa : Isa} {i : Instruction} (hi : U16.decode h isa = .ok i)
    (hz : ∀ o, i.opc ≠ .Zicfiss o) : lossy i.opc = true ↔ i.opc = .C .NOP := by
  rcases (C27_metadata16 h isa i hi).2.2.1 with ⟨o, e⟩ | e | e
  · rw [e]
    cases o <;> simp [lossy]
  · exact absurd e (hz _)
  · exact absurd e (hz _)

theorem texts16_list (isa : Isa) (op : OpcodeKind) : ∃ l : List String, l.Nodup ∧
    (∀ s, s ∈ l ↔ ∃ h i, U16.decode h isa = .ok i ∧ i.opc = op ∧ i.fmt = .ok s) ∧
    l.length = (textRegion16 isa op).size := by
  have opc {n : Nat} {i : Instruction} (hn : n < 2 ^ 16) (h : (textRegion16 isa op).has n = true)
      (hv : U16.decode (BitVec.ofNat 16 n) isa = .ok i) : i.opc = op := by
    obtain ⟨i', h1, h2⟩ := accepts_value16 hn (textRegion16_accepts hn h).1
    rw [hv] at h1
    cases h1
    exact h2
  obtain ⟨l, hl, hm, hc⟩ := list_of_values (2 ^ 16) (textRegion16 isa op).has (textOf16 isa)
    (fun n hn h => by
      obtain ⟨h1, h2⟩ := textRegion16_accepts hn h
      obtain ⟨i, hi, rfl⟩ := accepts_value16 hn h1
      obtain ⟨s, hs, -⟩ := C33_text_exists i (.inr ⟨_, _, hi⟩) fun e => by
        obtain ⟨o, e⟩ := (printed16 hi).1 e
        exact h2 o e
      rw [textOf16_iff.2 ⟨i, hi, hs⟩]
      rfl)
    (fun n m s hn hm pn pm hvn hvm => by
      obtain ⟨i, hi, hti⟩ := textOf16_iff.1 hvn
      obtain ⟨j, hj, htj⟩ := textOf16_iff.1 hvm
      have hop := opc hn pn hi
      subst hop
      have hz := (textRegion16_accepts hn pn).2
      by_cases hb : i.opc = .C .NOP
      · rw [hb, textRegion16_nop hn] at pn
        rw [hb, textRegion16_nop hm] at pm
        rw [pn, pm]
      have e := C36_lossless i j (.inr ⟨_, _, hi⟩) (.inr ⟨_, _, hj⟩) s hti htj
        (by rw [← Bool.not_eq_true, lossy16 hi hz]; exact hb)
      subst e
      rw [textRegion16_same hb hz] at pn pm
      by_cases hb : i.opc = .C .EBREAK
      · rw [hb, canon16_ebreak hn] at pn
        rw [hb, canon16_ebreak hm] at pm
        rw [pn, pm]
      · have h := C31_injective_partial _ _ isa isa i hi hj hb
        have h := congrArg BitVec.toNat h
        simpa only [BitVec.toNat_ofNat, Nat.mod_eq_of_lt hn, Nat.mod_eq_of_lt hm] using h)
  refine ⟨l, hl, fun s => ?_, hc.trans (region_count _ (textRegions16_ok isa op))⟩
  rw [hm]
  constructor
  · intro ⟨n, hn, pn, hv⟩
    obtain ⟨i, hi, hs⟩ := textOf16_iff.1 hv
    exact ⟨_, i, hi, opc hn pn hi, hs⟩
  · rintro ⟨h, i, hh, rfl, hs⟩
    have hz : ∀ o, i.opc ≠ .Zicfiss o := by
      intro o e
      have k := (printed16 hh).2 ⟨o, e⟩
      obtain ⟨as, ss, ha, -⟩ := (C33_text i (.inr ⟨_, _, hh⟩) s).1 hs
      rw [ha] at k
      cases k
    by_cases hb : i.opc = .C .NOP
    · have p1 : (textRegion16 isa i.opc).has 1 = true := by rw [hb, textRegion16_nop (by decide)]
      obtain ⟨j, hj, ej⟩ := accepts_value16 (by decide) (textRegion16_accepts (by decide) p1).1
      refine ⟨1, by decide, p1, textOf16_iff.2 ⟨j, hj, ?_⟩⟩
      refine (C33_text j (.inr ⟨_, _, hj⟩) s).2 (isText_of_shown ej.symm ?_ ((C33_text i (.inr ⟨_, _, hh⟩) s).1 hs))
      rw [hb]
      simp [shown, args]
    rw [textRegion16_same hb hz]
    by_cases hb : i.opc = .C .EBREAK
    · refine ⟨0x9002, by decide, by rw [hb, canon16_ebreak (by decide)], textOf16_iff.2 ⟨i, ?_, hs⟩⟩
      exact (C45_same_value_iff h _ isa i hh).2 (.inr ⟨hb, by decide, by decide, by decide, by decide⟩)
    · refine ⟨h.toNat, h.isLt, ?_, textOf16_iff.2 ⟨i, ?_, hs⟩⟩
      · rw [canon16_same hb]
        exact (region16_has _ _ h.isLt _).2 ((decode16_ok_iff ..).1 hh).1
      · rw [BitVec.ofNat_toNat, BitVec.setWidth_eq]
        exact hh

/-- The number of different texts of each opcode that are printed for 32-bit words. -/
def texts32 (isa : Isa) (op : OpcodeKind) : Nat :=
  match gated64 op, isa, op with
  | true, .Rv32, _ => 0
  | _, _, .BaseI .SLLI | _, _, .BaseI .SRLI | _, _, .BaseI .SRAI | _, _, .BaseI .SLLIW | _, _, .BaseI .SRLIW
  | _, _, .BaseI .SRAIW => 2 ^ 10
  | _, _, .A .LR_W => 2 ^ 12
  | _, _, .A .LR_D => 2 ^ 10
  | _, _, .A _ => 2 ^ 15
  | _, _, .Zifencei .FENCE => 1
  | _, _, .Zicfiss .SSPUSH => 1
  | _, _, .Zicfiss .SSPOPCHK => 0
  | _, _, .Priv .SFENCE_VMA => 0
  | _, _, _ => distinct32 isa op

/-- The number of different texts of each opcode that are printed for halfwords. -/
def texts16 (isa : Isa) (op : OpcodeKind) : Nat :=
  match op with
  | .C .NOP => 1
  | .Zicfiss _ => 0
  | _ => distinct16 isa op

theorem text_sizes (isa : Isa) (op : OpcodeKind) :
    (textRegion32 isa op).size = texts32 isa op ∧ (textRegion16 isa op).size = texts16 isa op := by
  have h : (allOpcodes.all fun op => [Isa.Rv32, .Rv64].all fun isa => decide <|
      (textRegion32 isa op).size = texts32 isa op ∧ (textRegion16 isa op).size = texts16 isa op) = true := by
    decide +kernel
  exact of_decide_eq_true
    (List.all_eq_true.1 (List.all_eq_true.1 h op (allOpcodes_mem op)) isa (by cases isa <;> simp))

/-- C98.  For every opcode, how many different texts of instructions with it are printed after decoding 32-bit words
and halfwords: the texts are the members of a list of this length without repetitions. -/
theorem C98_opcodes (isa : Isa) (op : OpcodeKind) :
    (∃ l : List String, l.Nodup ∧
      (∀ s, s ∈ l ↔ ∃ w i, U32.decode w isa = .ok i ∧ i.opc = op ∧ i.fmt = .ok s) ∧ l.length = texts32 isa op) ∧
    ∃ l : List String, l.Nodup ∧
      (∀ s, s ∈ l ↔ ∃ h i, U16.decode h isa = .ok i ∧ i.opc = op ∧ i.fmt = .ok s) ∧ l.length = texts16 isa op := by
  have h1 := texts32_list isa op
  have h2 := texts16_list isa op
  rw [(text_sizes isa op).1] at h1
  rw [(text_sizes isa op).2] at h2
  exact ⟨h1, h2⟩

/-- Lists of the texts of each opcode make a list of texts. -/
theorem join_texts (q : OpcodeKind → String → Prop) (c : OpcodeKind → Nat)
    (hd : ∀ op op' s, q op s → q op' s → op = op')
    (h : ∀ op, ∃ l : List String, l.Nodup ∧ (∀ s, s ∈ l ↔ q op s) ∧ l.length = c op) :
    ∃ l : List String, l.Nodup ∧ (∀ s, s ∈ l ↔ ∃ op, q op s) ∧ l.length = (allOpcodes.map c).sum := by
  have key (ops : List OpcodeKind) (hn : ops.Nodup) : ∃ l : List String, l.Nodup ∧
      (∀ s, s ∈ l ↔ ∃ op, op ∈ ops ∧ q op s) ∧ l.length = (ops.map c).sum := by
    induction ops with
    | nil => exact ⟨[], List.nodup_nil, by simp, rfl⟩
    | cons op ops ih =>
      rw [List.nodup_cons] at hn
      obtain ⟨l, h1, h2, h3⟩ := h op
      obtain ⟨k, g1, g2, g3⟩ := ih hn.2
      refine ⟨l ++ k, ?_, fun s => ?_, ?_⟩
      · refine List.nodup_append.2 ⟨h1, g1, ?_⟩
        intro a ha b hb e
        subst e
        obtain ⟨op', hm, hq⟩ := (g2 a).1 hb
        exact hn.1 (hd _ _ _ ((h2 a).1 ha) hq ▸ hm)
      · rw [List.mem_append, h2, g2]
        constructor
        · rintro (a | ⟨op', a, b⟩)
          · exact ⟨op, List.mem_cons_self, a⟩
          · exact ⟨op', List.mem_cons_of_mem _ a, b⟩
        · rintro ⟨op', a, b⟩
          rcases List.mem_cons.1 a with rfl | a
          · exact .inl b
          · exact .inr ⟨op', a, b⟩
      · rw [List.length_append, h3, g3, List.map_cons, List.sum_cons]
  obtain ⟨l, h1, h2, h3⟩ := key allOpcodes allOpcodes_nodup
  refine ⟨l, h1, fun s => ?_, h3⟩
  rw [h2]
  exact ⟨fun ⟨op, _, h⟩ => ⟨op, h⟩, fun ⟨op, h⟩ => ⟨op, allOpcodes_mem _, h⟩⟩

theorem join_texts32 (isa : Isa) : ∃ l : List String, l.Nodup ∧
    (∀ s, s ∈ l ↔ ∃ w i, U32.decode w isa = .ok i ∧ i.fmt = .ok s) ∧ l.length = (allOpcodes.map (texts32 isa)).sum := by
  obtain ⟨l, h1, h2, h3⟩ := join_texts _ _
    (fun op op' s ⟨_, i, hi, e, t⟩ ⟨_, j, hj, e', t'⟩ =>
      e ▸ e' ▸ (C36_text_determines i j (.inl ⟨_, _, hi⟩) (.inl ⟨_, _, hj⟩) s t t').1)
    fun op => (C98_opcodes isa op).1
  refine ⟨l, h1, fun s => ?_, h3⟩
  rw [h2]
  exact ⟨fun ⟨_, w, i, a, _, b⟩ => ⟨w, i, a, b⟩, fun ⟨w, i, a, b⟩ => ⟨_, w, i, a, rfl, b⟩⟩

theorem join_texts16 (isa : Isa) : ∃ l : List String, l.Nodup ∧
    (∀ s, s ∈ l ↔ ∃ h i, U16.decode h isa = .ok i ∧ i.fmt = .ok s) ∧ l.length = (allOpcodes.map (texts16 isa)).sum := by
  obtain ⟨l, h1, h2, h3⟩ := join_texts _ _
    (fun op op' s ⟨_, i, hi, e, t⟩ ⟨_, j, hj, e', t'⟩ =>
      e ▸ e' ▸ (C36_text_determines i j (.inr ⟨_, _, hi⟩) (.inr ⟨_, _, hj⟩) s t t').1)
    fun op => (C98_opcodes isa op).2
  refine ⟨l, h1, fun s => ?_, h3⟩
  rw [h2]
  exact ⟨fun ⟨_, w, i, a, _, b⟩ => ⟨w, i, a, b⟩, fun ⟨w, i, a, b⟩ => ⟨_, w, i, a, rfl, b⟩⟩

/-- C98.  How many different texts are printed. -/
theorem C98_total :
    (∃ l : List String, l.Nodup ∧ (∀ s, s ∈ l ↔ ∃ w i, U32.decode w .Rv32 = .ok i ∧ i.fmt = .ok s) ∧
      l.length = 214893831) ∧
    (∃ l : List String, l.Nodup ∧ (∀ s, s ∈ l ↔ ∃ w i, U32.decode w .Rv64 = .ok i ∧ i.fmt = .ok s) ∧
      l.length = 232330503) ∧
    (∃ l : List String, l.Nodup ∧ (∀ s, s ∈ l ↔ ∃ h i, U16.decode h .Rv32 = .ok i ∧ i.fmt = .ok s) ∧
      l.length = 30367) ∧
    ∃ l : List String, l.Nodup ∧ (∀ s, s ∈ l ↔ ∃ h i, U16.decode h .Rv64 = .ok i ∧ i.fmt = .ok s) ∧
      l.length = 38687 := by
  refine ⟨?_, ?_, ?_, ?_⟩
  · obtain ⟨l, h1, h2, h3⟩ := join_texts32 .Rv32
    exact ⟨l, h1, h2, h3.trans (by decide +kernel)⟩
  · obtain ⟨l, h1, h2, h3⟩ := join_texts32 .Rv64
    exact ⟨l, h1, h2, h3.trans (by decide +kernel)⟩
  · obtain ⟨l, h1, h2, h3⟩ := join_texts16 .Rv32
    exact ⟨l, h1, h2, h3.trans (by decide +kernel)⟩
  · obtain ⟨l, h1, h2, h3⟩ := join_texts16 .Rv64
    exact ⟨l, h1, h2, h3.trans (by decide +kernel)⟩

/-- C98.  No text is printed both for a word and for a halfword, so the numbers may be added. -/
theorem C98_apart (w : BitVec 32) (h : BitVec 16) (isa isa' : Isa) (i j : Instruction)
    (hi : U32.decode w isa = .ok i) (hj : U16.decode h isa' = .ok j) (s : String) (hs : i.fmt = .ok s) :
    j.fmt ≠ .ok s := by
  intro hs'
  have e := (C36_text_determines i j (.inl ⟨_, _, hi⟩) (.inr ⟨_, _, hj⟩) s hs hs').1
  have k := decoded_width i j (.inl ⟨_, _, hi⟩) (.inr ⟨_, _, hj⟩) e
  have k1 := (decode32_ok_iff ..).1 hi
  obtain ⟨r, -, -, k1⟩ := k1
  have k2 := ((decode16_ok_iff ..).1 hj).2
  rw [k1, k2] at k
  cases k

/-- Two shifts by different amounts have one text; two additions have two; `sspopchk` has none. -/
example : textOf32 .Rv32 0x00109093 = some "slli ra, ra" ∧ textOf32 .Rv32 0x00209093 = some "slli ra, ra" ∧
    textOf32 .Rv32 0x00108093 = some "addi ra, ra, 1" ∧ textOf32 .Rv32 0x00208093 = some "addi ra, ra, 2" ∧
    textOf32 .Rv32 0xcdc0c073 = none ∧ textOf16 .Rv32 0x0001 = textOf16 .Rv32 0x0005 := by
  decide +kernel

end Raki
