import Verif.Props.Stream
import Verif.Props.Display
/-!
# Programs on either ISA, and their listings (C52, C53, C54)

The two loops here are ones a user of the crate writes; each of their steps is a call of the crate.
-/

namespace Raki

open Spec

/-! ## Sweeping on a chosen ISA -/

/-- The sweep of `Verif.Props.Stream` with `decode` for a chosen ISA in place of `try_from`. -/
def sweepAt (isa : Isa) : List Nat → RustM (List Instruction × List Nat)
  | [] => .ok ([], [])
  | [h] =>
      if h % 4 = 3 then .ok ([], [h])
      else (U16.decode (BitVec.ofNat 16 h) isa).bind fun i => .ok ([i], [])
  | h :: l :: rest =>
      if h % 4 = 3 then
        (U32.decode (BitVec.ofNat 32 (h + l * 2 ^ 16)) isa).bind fun i =>
          (sweepAt isa rest).bind fun r => .ok (i :: r.1, r.2)
      else
        (U16.decode (BitVec.ofNat 16 h) isa).bind fun i =>
          (sweepAt isa (l :: rest)).bind fun r => .ok (i :: r.1, r.2)

theorem sweepAt_half (isa : Isa) (h : Nat) (rest : List Nat) (h3 : h % 4 ≠ 3) :
    sweepAt isa (h :: rest) = (U16.decode (BitVec.ofNat 16 h) isa).bind fun i =>
      (sweepAt isa rest).bind fun r => .ok (i :: r.1, r.2) := by
  cases rest with
  | nil =>
      simp only [sweepAt, if_neg h3]
      cases U16.decode (BitVec.ofNat 16 h) isa <;> rfl
  | cons l rest => rw [sweepAt, if_neg h3]

theorem sweepAt_word (isa : Isa) (h l : Nat) (rest : List Nat) (h3 : h % 4 = 3) :
    sweepAt isa (h :: l :: rest) = (U32.decode (BitVec.ofNat 32 (h + l * 2 ^ 16)) isa).bind fun i =>
      (sweepAt isa rest).bind fun r => .ok (i :: r.1, r.2) := by
  rw [sweepAt, if_pos h3]

/-- C52.  On RV64 this is the sweep with `try_from`. -/
theorem C52_rv64_is_try_from (hs : List Nat) (hb : ∀ h ∈ hs, h < 2 ^ 16) :
    sweepAt .Rv64 hs = sweep hs := by
  induction hs using sweep.induct with
  | case1 => rfl
  | case2 h h3 => rw [sweep, sweepAt, if_pos h3, if_pos h3]
  | case3 h h3 =>
      rw [sweep, sweepAt, if_neg h3, if_neg h3, C03_try_from_16 _ h3 (hb h (by simp))]
  | case4 h l rest h3 ih =>
      have hh := hb h (by simp)
      have hl := hb l (by simp)
      rw [sweep_word _ _ _ h3, sweepAt_word _ _ _ _ h3, C03_try_from_32 _ (by omega) (by omega),
        ih fun x hx => hb x (by simp [hx])]
  | case5 h l rest h3 ih =>
      rw [sweep_half _ _ h3, sweepAt_half _ _ _ h3, C03_try_from_16 _ h3 (hb h (by simp)),
        ih fun x hx => hb x (by simp at hx ⊢; exact .inr hx)]

/-- C52.  A program of well-formed instructions of the ISA, of both widths and any length, is read back
exactly, and the sweep carries on behind it. -/
theorem C52_program (isa : Isa) (p : List Instruction) (hp : ∀ i ∈ p, WF32 isa i ∨ WF16 isa i)
    (rest : List Nat) :
    sweepAt isa (layout p ++ rest) = (sweepAt isa rest).bind fun r => .ok (p ++ r.1, r.2) := by
  induction p with
  | nil => simp only [layout, List.flatMap_nil, List.nil_append]; cases sweepAt isa rest <;> rfl
  | cons i p ih =>
      have e : layout (i :: p) ++ rest = halfwords i ++ (layout p ++ rest) := by
        simp [layout]
      have ih := ih fun j hj => hp j (by simp [hj])
      rw [e]
      rcases hp i (by simp) with hi | hi
      · obtain ⟨h1, h2⟩ := C28_encode_decode isa i hi
        have h3 := decode32_low _ _ _ h2
        rw [toNat_ofNat32 _ h1] at h3
        have hc : i.isCompressed = false := hi.2.2.1
        have hcat : asm32 i % 2 ^ 16 + asm32 i / 2 ^ 16 * 2 ^ 16 = asm32 i := by omega
        simp only [halfwords, hc, Bool.false_eq_true, if_false, List.cons_append, List.nil_append]
        rw [sweepAt_word _ _ _ _ (by omega), hcat, h2, ih]
        cases sweepAt isa rest <;> rfl
      · obtain ⟨h1, h2⟩ := C30_encode_decode isa i hi
        have h3 := decode16_low _ _ _ h2
        rw [toNat_ofNat16 _ h1] at h3
        have hc : i.isCompressed = true := hi.2.1
        simp only [halfwords, hc, if_true, List.cons_append, List.nil_append]
        rw [sweepAt_half _ _ _ h3, h2, ih]
        cases sweepAt isa rest <;> rfl

/-- C52.  No memory makes the sweep panic, on either ISA. -/
theorem C52_no_panic (isa : Isa) (hs : List Nat) : sweepAt isa hs ≠ .panic := by
  induction hs using sweep.induct with
  | case1 => exact fun h => nomatch h
  | case2 h h3 => rw [sweepAt, if_pos h3]; exact fun h => nomatch h
  | case3 h h3 =>
      rw [sweepAt, if_neg h3]
      cases hd : U16.decode (BitVec.ofNat 16 h) isa with
      | panic => exact absurd hd (decode16_no_panic _ _)
      | ok i => exact fun h => nomatch h
      | err e => exact fun h => nomatch h
  | case4 h l rest h3 ih =>
      rw [sweepAt_word _ _ _ _ h3]
      cases hd : U32.decode (BitVec.ofNat 32 (h + l * 2 ^ 16)) isa with
      | panic => exact absurd hd (decode32_no_panic _ _)
      | ok i =>
          cases hr : sweepAt isa rest with
          | panic => exact absurd hr ih
          | ok r => exact fun h => nomatch h
          | err e => exact fun h => nomatch h
      | err e => exact fun h => nomatch h
  | case5 h l rest h3 ih =>
      rw [sweepAt_half _ _ _ h3]
      cases hd : U16.decode (BitVec.ofNat 16 h) isa with
      | panic => exact absurd hd (decode16_no_panic _ _)
      | ok i =>
          cases hr : sweepAt isa (l :: rest) with
          | panic => exact absurd hr ih
          | ok r => exact fun h => nomatch h
          | err e => exact fun h => nomatch h
      | err e => exact fun h => nomatch h

theorem bind_eq_ok {α β : Type} {x : RustM α} {f : α → RustM β} {b : β} (h : x.bind f = .ok b) :
    ∃ a, x = .ok a ∧ f a = .ok b := by
  cases x with
  | ok a => exact ⟨a, rfl, h⟩
  | err e => cases h
  | panic => cases h

/-- C52.  A memory that RV32 reads as a program without `c.jal` is read by RV64 as the very same
program. -/
theorem C52_rv32_on_rv64 (hs : List Nat) (p : List Instruction) (t : List Nat)
    (h : sweepAt .Rv32 hs = .ok (p, t)) (hj : ∀ i ∈ p, i.opc ≠ .C .JAL) :
    sweepAt .Rv64 hs = .ok (p, t) := by
  induction hs using sweep.induct generalizing p t with
  | case1 => exact h
  | case2 x h3 => rw [sweepAt, if_pos h3] at h ⊢; exact h
  | case3 x h3 =>
      rw [sweepAt, if_neg h3] at h ⊢
      obtain ⟨i, hd, h⟩ := bind_eq_ok h
      cases h
      rw [C20_rv32_then_rv64 _ _ hd (hj i (by simp))]; rfl
  | case4 x l rest h3 ih =>
      rw [sweepAt_word _ _ _ _ h3] at h ⊢
      obtain ⟨i, hd, h⟩ := bind_eq_ok h
      obtain ⟨⟨q, u⟩, hr, h⟩ := bind_eq_ok h
      cases h
      rw [C19_rv32_then_rv64 _ _ hd, ih q u hr fun j hq => hj j (by simp [hq])]; rfl
  | case5 x l rest h3 ih =>
      rw [sweepAt_half _ _ _ h3] at h ⊢
      obtain ⟨i, hd, h⟩ := bind_eq_ok h
      obtain ⟨⟨q, u⟩, hr, h⟩ := bind_eq_ok h
      cases h
      rw [C20_rv32_then_rv64 _ _ hd (hj i (by simp)), ih q u hr fun j hq => hj j (by simp [hq])]; rfl

example : ∃ p, sweepAt .Rv32 [0x0093, 0x0050, 0xdc6d] = .ok (p, []) ∧ p.length = 2 ∧
    ∀ i ∈ p, i.opc ≠ .C .JAL := ⟨_, rfl, by decide, by decide⟩
-- with a `c.jal` the two readings differ
example : sweepAt .Rv32 [0x2001] ≠ sweepAt .Rv64 [0x2001] := by decide

/-! ## Text -/

/-- Printable ASCII. -/
def printable (s : String) : Prop := ∀ c ∈ s.toList, 32 ≤ c.toNat ∧ c.toNat ≤ 126

theorem printable_append {s t : String} (hs : printable s) (ht : printable t) : printable (s ++ t) := by
  intro c hc
  rw [String.toList_append, List.mem_append] at hc
  exact hc.elim (hs c) (ht c)

theorem printable_numeral {b : Nat} {cs : List Char} {n : Nat} (h : isNumeral b cs n) :
    ∀ c ∈ cs, 32 ≤ c.toNat ∧ c.toNat ≤ 126 := by
  intro c hc
  have := (h.2.1 c hc).1
  omega

theorem printable_decimal {s : String} {z : Int} (h : isDecimal s z) : printable s := by
  rcases h with ⟨-, h⟩ | ⟨-, cs, hs, h⟩
  · exact printable_numeral h
  · intro c hc
    rw [hs] at hc
    rcases List.mem_cons.1 hc with rfl | hc
    · decide
    · exact printable_numeral h c hc

theorem printable_abi (n : Nat) (h : n < 32) : printable (abiName n) := by
  have key : ∀ n : Fin 32, ∀ c ∈ (abiName n.val).toList, 32 ≤ c.toNat ∧ c.toNat ≤ 126 := by decide
  exact key ⟨n, h⟩

theorem printable_name {o : Option Nat} {s : String} (h : isName o s) : printable s := by
  obtain ⟨n, -, hn, rfl⟩ := h
  exact printable_abi n hn

theorem printable_arg {i : Instruction} {a : Arg} {s : String} (ha : ∀ t, a = .lit t → printable t)
    (h : argText i a s) : printable s := by
  cases a <;> simp only [argText] at h
  case rd | rs1 | rs2 => exact printable_name h
  case lit t => subst h; exact ha _ rfl
  case at1 =>
    obtain ⟨r, h, rfl⟩ := h
    exact printable_append (printable_append (by unfold printable; decide) (printable_name h))
      (by unfold printable; decide)
  case num1 | num2 | imm =>
    obtain ⟨n, -, h⟩ := h
    exact printable_decimal h
  case hex2 | immHex =>
    obtain ⟨n, d, -, h, rfl⟩ := h
    exact printable_append (by unfold printable; decide) (printable_numeral h)
  case immHexBare =>
    obtain ⟨n, -, h⟩ := h
    exact printable_numeral h
  case immAt2 =>
    obtain ⟨z, d, r, -, h, g, rfl⟩ := h
    exact printable_append (printable_append (printable_append (printable_decimal h)
      (by unfold printable; decide)) (printable_name g)) (by unfold printable; decide)
  case immAtSp =>
    obtain ⟨z, d, -, h, rfl⟩ := h
    exact printable_append (printable_decimal h) (by unfold printable; decide)

theorem printable_commas {ss : List String} (h : ∀ s ∈ ss, printable s) : printable (commas ss) := by
  induction ss with
  | nil => unfold printable commas; decide
  | cons s ss ih =>
      cases ss with
      | nil => exact h s (by simp)
      | cons t ss =>
          exact printable_append (printable_append (h s (by simp)) (by unfold printable; decide))
            (ih fun x hx => h x (by simp at hx ⊢; exact .inr hx))

theorem printable_args {i : Instruction} {as : List Arg} {ss : List String}
    (ha : ∀ t, .lit t ∈ as → printable t) (h : argTexts i as ss) : ∀ s ∈ ss, printable s := by
  induction as generalizing ss with
  | nil => cases ss with
    | nil => intro s hs; cases hs
    | cons _ _ => exact h.elim
  | cons a as ih =>
      cases ss with
      | nil => exact h.elim
      | cons s ss =>
          intro x hx
          rcases List.mem_cons.1 hx with rfl | hx
          · exact printable_arg (fun t ht => ha t (by simp [ht])) h.1
          · exact ih (fun t ht => ha t (by simp [ht])) h.2 x hx

theorem printable_lit (f : InstFormat) (op : OpcodeKind) (as : List Arg) (h : formatArgs f op = some as)
    (t : String) (ht : .lit t ∈ as) : printable t := by
  have : t = "sp" ∨ t = "zero" ∨ t = "ra" := by
    cases f <;> simp only [formatArgs] at h
    all_goals (repeat' split at h)
    all_goals first
      | cases h
      | (injection h with h; subst h; simp at ht)
    all_goals simp_all
  rcases this with rfl | rfl | rfl <;> (unfold printable; decide)

theorem printable_mnemonic (op : OpcodeKind) : printable (printedName op) := by
  unfold printable
  rcases op with o | o | o | o | o | o | o | o | o | o <;> cases o <;> decide

/-- C53.  Whatever the value displayed, the text is a single line of printable ASCII and not empty. -/
theorem C53_one_line (i : Instruction) (s : String) (h : i.fmt = .ok s) :
    (∀ c ∈ s.toList, 32 ≤ c.toNat ∧ c.toNat ≤ 126) ∧ s ≠ "" := by
  obtain ⟨as, ss, hf, ht, rfl⟩ := (C48_display_any i s).1 h
  have hne : printedName i.opc ≠ "" := by
    generalize i.opc = op
    rcases op with o | o | o | o | o | o | o | o | o | o <;> cases o <;> decide
  have hp := printable_args (fun t ht => printable_lit _ _ _ hf t ht) ht
  cases ss with
  | nil => exact ⟨printable_mnemonic _, hne⟩
  | cons x ss =>
      refine ⟨printable_append (printable_append (printable_mnemonic _) (by unfold printable; decide))
        (printable_commas hp), fun h => hne ?_⟩
      have h2 := congrArg String.toList h
      simp [line, String.toList_append] at h2

/-! ## Listings -/

/-- What `for i in p { writeln!(out, "{i}") }` writes. -/
def listing : List Instruction → RustM String
  | [] => .ok ""
  | i :: p => i.fmt.bind fun s => (listing p).bind fun t => .ok (s ++ "\n" ++ t)

theorem fmt_no_err (i : Instruction) (e : DecodingError) : i.fmt ≠ .err e :=
  (C48_display_any_panics i).1 e

/-- C54.  Listing a decoded program panics exactly when one of the four opcodes without a text is in it. -/
theorem C54_listing_panics_iff (p : List Instruction) (hp : ∀ i ∈ p, Decoded i) :
    listing p = .panic ↔ ∃ i ∈ p, i.opc = .Zicfiss .SSPOPCHK ∨ i.opc = .Zicfiss .C_SSPUSH ∨
      i.opc = .Zicfiss .C_SSPOPCHK ∨ i.opc = .Priv .SFENCE_VMA := by
  induction p with
  | nil => simp [listing]
  | cons i p ih =>
      have ih := ih fun j hj => hp j (by simp [hj])
      have hi := C49_display_panics_iff i (hp i (by simp))
      rw [listing]
      cases hf : i.fmt with
      | panic => exact ⟨fun _ => ⟨i, by simp, hi.1 hf⟩, fun _ => rfl⟩
      | err e => exact absurd hf (fmt_no_err i e)
      | ok s =>
          have hni : ¬ _ := fun h => by rw [hi.2 h] at hf; cases hf
          have : (RustM.ok s).bind (fun s => (listing p).bind fun t => RustM.ok (s ++ "\n" ++ t)) = .panic ↔
              listing p = .panic := by
            cases listing p <;> simp [RustM.bind]
          rw [this, ih]
          constructor
          · rintro ⟨j, hj, h⟩; exact ⟨j, by simp [hj], h⟩
          · rintro ⟨j, hj, h⟩
            rcases List.mem_cons.1 hj with rfl | hj
            · exact absurd h hni
            · exact ⟨j, hj, h⟩

/-- C54.  The listing of a decoded program determines the number of instructions and, for each, the
opcode and the operands shown. -/
theorem C54_listing_determines (p q : List Instruction) (hp : ∀ i ∈ p, Decoded i)
    (hq : ∀ i ∈ q, Decoded i) (s : String) (h : listing p = .ok s) (h' : listing q = .ok s) :
    p.length = q.length ∧
      ∀ ij ∈ p.zip q, ij.1.opc = ij.2.opc ∧ ∀ x ∈ shown ij.1.opc, sameOperand ij.1 ij.2 x := by
  induction p generalizing q s with
  | nil =>
      cases q with
      | nil => simp
      | cons j q =>
          exfalso
          cases h
          obtain ⟨a, -, h'⟩ := bind_eq_ok h'
          obtain ⟨b, -, h'⟩ := bind_eq_ok h'
          injection h' with h'
          have := congrArg String.toList h'
          simp [String.toList_append] at this
  | cons i p ih =>
      obtain ⟨a, ha, h⟩ := bind_eq_ok h
      obtain ⟨b, hb, h⟩ := bind_eq_ok h
      injection h with h
      cases q with
      | nil =>
          exfalso
          cases h'
          have := congrArg String.toList h
          simp [String.toList_append] at this
      | cons j q =>
          obtain ⟨a', ha', h'⟩ := bind_eq_ok h'
          obtain ⟨b', hb', h'⟩ := bind_eq_ok h'
          injection h' with h'
          have e := congrArg String.toList (h.trans h'.symm)
          simp only [String.toList_append, List.append_assoc] at e
          have hn : ("\n").toList = ['\n'] := rfl
          rw [hn] at e
          have nl : ∀ x : Instruction, ∀ t, x.fmt = .ok t → ∀ c ∈ t.toList, c ≠ '\n' := by
            rintro x t ht c hc rfl
            have := (C53_one_line x t ht).1 _ hc
            revert this; decide
          obtain ⟨e1, e2⟩ := split_at '\n' _ _ _ _ (nl i a ha) (nl j a' ha') e
          have e1 := string_ext e1
          have e2 := string_ext e2
          subst e1; subst e2
          obtain ⟨hl, hz⟩ := ih q (fun x hx => hp x (by simp [hx])) (fun x hx => hq x (by simp [hx])) b hb hb'
          refine ⟨by simp [hl], fun ij hij => ?_⟩
          rcases List.mem_cons.1 hij with rfl | hij
          · exact C36_text_determines i j (hp i (by simp)) (hq j (by simp)) a ha ha'
          · exact hz ij hij

/-- C54.  Where no opcode with a lossy text occurs, the listing determines the program. -/
theorem C54_listing_lossless (p q : List Instruction) (hp : ∀ i ∈ p, Decoded i)
    (hq : ∀ i ∈ q, Decoded i) (hl : ∀ i ∈ p, lossy i.opc = false) (s : String)
    (h : listing p = .ok s) (h' : listing q = .ok s) : p = q := by
  induction p generalizing q s with
  | nil =>
      have := (C54_listing_determines [] q hp hq s h h').1
      exact (List.length_eq_zero_iff.1 this.symm).symm
  | cons i p ih =>
      cases q with
      | nil => have := (C54_listing_determines _ _ hp hq s h h').1; simp at this
      | cons j q =>
          obtain ⟨a, ha, h⟩ := bind_eq_ok h
          obtain ⟨b, hb, h⟩ := bind_eq_ok h
          injection h with h
          obtain ⟨a', ha', h'⟩ := bind_eq_ok h'
          obtain ⟨b', hb', h'⟩ := bind_eq_ok h'
          injection h' with h'
          have e := congrArg String.toList (h.trans h'.symm)
          simp only [String.toList_append, List.append_assoc] at e
          have hn : ("\n").toList = ['\n'] := rfl
          rw [hn] at e
          have nl : ∀ x : Instruction, ∀ t, x.fmt = .ok t → ∀ c ∈ t.toList, c ≠ '\n' := by
            rintro x t ht c hc rfl
            have := (C53_one_line x t ht).1 _ hc
            revert this; decide
          obtain ⟨e1, e2⟩ := split_at '\n' _ _ _ _ (nl i a ha) (nl j a' ha') e
          have e1 := string_ext e1
          have e2 := string_ext e2
          subst e1; subst e2
          rw [C36_lossless i j (hp i (by simp)) (hq j (by simp)) a ha ha' (hl i (by simp)),
            ih q (fun x hx => hp x (by simp [hx])) (fun x hx => hq x (by simp [hx]))
              (fun x hx => hl x (by simp [hx])) b hb hb']

example : listing sampleProgram = .ok "addi ra, zero, 5\nC.beqz 8, -6\necall\n" := by decide
example : ∀ i ∈ sampleProgram, Decoded i ∧ lossy i.opc = false := by
  intro i hi
  simp only [sampleProgram, List.mem_cons, List.not_mem_nil, or_false] at hi
  rcases hi with rfl | rfl | rfl
  · exact ⟨.inl ⟨0x00500093, .Rv64, rfl⟩, rfl⟩
  · exact ⟨.inr ⟨0xdc6d, .Rv64, rfl⟩, rfl⟩
  · exact ⟨.inl ⟨0x00000073, .Rv64, rfl⟩, rfl⟩

end Raki
