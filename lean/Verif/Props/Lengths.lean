import Verif.Props.DebugPretty
import Verif.Props.Sink
/-!
# How long the texts are (C83)

A user without an allocator prints into a buffer of fixed size.  These are the exact sizes that suffice.
-/

namespace Raki

open Spec

/-! ## Numerals -/

theorem foldl_ge (b : Nat) (cs : List Char) (a : Nat) :
    a * b ^ cs.length ≤ cs.foldl (fun a c => a * b + digitVal c) a := by
  induction cs generalizing a with
  | nil => simp
  | cons c cs ih =>
    refine Nat.le_trans ?_ (ih _)
    rw [List.length_cons, Nat.pow_succ, Nat.mul_comm (b ^ cs.length), ← Nat.mul_assoc]
    exact Nat.mul_le_mul_right _ (Nat.le_add_right _ _)

theorem numeral_length {b : Nat} {cs : List Char} {n k : Nat} (hb : 1 < b) (h : isNumeral b cs n)
    (hn : n < b ^ k) (hk : 1 ≤ k) : cs.length ≤ k := by
  obtain ⟨hne, hd, h0, hv⟩ := h
  cases cs with
  | nil => exact (hne rfl).elim
  | cons c t =>
    cases t with
    | nil => simpa using hk
    | cons d t =>
      have hc : c ≠ '0' := by
        intro e
        have := h0 (by rw [e]; rfl)
        rw [e] at this
        cases this
      have h1 : 1 ≤ digitVal c := by
        have hr := (hd c List.mem_cons_self).1
        have hn : c.toNat ≠ 48 := fun e => hc (Char.ext (UInt32.toNat_inj.1 e))
        unfold digitVal
        split <;> omega
      have h2 := foldl_ge b (d :: t) (0 * b + digitVal c)
      have h3 : b ^ (d :: t).length ≤ n := by
        rw [← hv]
        refine Nat.le_trans ?_ h2
        exact Nat.le_trans (Nat.le_of_eq (Nat.one_mul _).symm) (Nat.mul_le_mul_right _ (by omega))
      have h4 := (Nat.pow_lt_pow_iff_right hb).1 (Nat.lt_of_le_of_lt h3 hn)
      simp only [List.length_cons] at h4 ⊢
      omega

theorem decimal_length {s : String} {z : Int} {k : Nat} (h : isDecimal s z) (lo : -(10 : Int) ^ k < z)
    (hi : z < 10 ^ (k + 1)) (hk : 1 ≤ k) : s.length ≤ k + 1 := by
  rw [← String.length_toList]
  rcases h with ⟨h0, h⟩ | ⟨h0, cs, e, h⟩
  · refine numeral_length (by omega) h ?_ (by omega)
    have : ((z.toNat : Nat) : Int) < ((10 ^ (k + 1) : Nat) : Int) := by push_cast; omega
    exact Int.ofNat_lt.1 this
  · rw [e, List.length_cons]
    have : cs.length ≤ k := by
      refine numeral_length (by omega) h ?_ hk
      have : (((-z).toNat : Nat) : Int) < ((10 ^ k : Nat) : Int) := by push_cast; omega
      exact Int.ofNat_lt.1 this
    omega

theorem natural_length {s : String} {n k : Nat} (h : isDecimal s n) (hi : n < 10 ^ k) (hk : 1 ≤ k) : s.length ≤ k := by
  rw [← String.length_toList]
  rcases h with ⟨-, h⟩ | ⟨h0, -⟩
  · exact numeral_length (by omega) h (by simpa using hi) hk
  · omega

theorem name_length {o : Option Nat} {s : String} (h : isName o s) : s.length ≤ 4 := by
  obtain ⟨n, -, hn, rfl⟩ := h
  revert n
  decide

/-! ## Decoded instructions -/

/-- How many characters the immediate takes in decimal, at most. -/
def immWidth : OpcodeKind → Nat
  | .BaseI .JAL => 8
  | .BaseI .LUI | .BaseI .AUIPC => 7
  | .BaseI .SLLI | .BaseI .SRLI | .BaseI .SRAI | .BaseI .SLLIW | .BaseI .SRLIW | .BaseI .SRAIW => 2
  | .BaseI _ => 5
  | .A _ => 1
  | .Zifencei _ => 4
  | .Zicsr _ => 2
  | .C .ADDI4SPN => 4
  | .C .LUI => 7
  | .C .J | .C .JAL => 5
  | .C .ADDI16SP | .C .BEQZ | .C .BNEZ => 4
  | .C _ => 3
  | _ => 0

theorem imm_length (i : Instruction) (h : Decoded i) {z : Int} (hz : i.imm = some z) {s : String}
    (hs : isDecimal s z) : s.length ≤ immWidth i.opc := by
  have big : ∀ k, 1 ≤ k → -(10 : Int) ^ k < z → z < 10 ^ (k + 1) → s.length ≤ k + 1 :=
    fun k hk lo hi => decimal_length hs lo hi hk
  have one : 0 ≤ z → z < 10 → s.length ≤ 1 := fun lo hi => by
    obtain ⟨n, rfl⟩ := Int.eq_ofNat_of_zero_le lo
    exact natural_length (k := 1) hs (by omega) (by omega)
  have b1 := big 1
  have b2 := big 2
  have b3 := big 3
  have b4 := big 4
  have b6 := big 6
  have b7 := big 7
  simp only [Int.reducePow, Int.reduceNeg, Nat.reduceLeDiff, Nat.reduceAdd, forall_const] at b1 b2 b3 b4 b6 b7
  clear big
  rcases h with ⟨w, isa, h⟩ | ⟨w, isa, h⟩
  · obtain ⟨r, hr, hi⟩ := C16_immediate_range32 w isa i z h hz
    revert hr
    rcases i.opc with o | o | o | o | o | o | o | o | o | o
    all_goals cases o
    all_goals intro hr
    all_goals first
      | (exfalso; revert hr; simp [row32]; done)
      | skip
    all_goals
      simp only [row32, Option.some.injEq] at hr
      subst hr
      cases isa <;> simp only [immRange32, immWidth] at hi ⊢ <;> first | exact hi.elim | omega
  · have hi := C16_immediate_range16 w isa i z h hz
    revert hi
    rcases i.opc with o | o | o | o | o | o | o | o | o | o
    all_goals cases o
    all_goals intro hi
    all_goals simp only [immRange16, immWidth] at hi ⊢
    all_goals first
      | exact hi.elim
      | omega

theorem decoded_regs_lt (i : Instruction) (h : Decoded i) :
    (∀ x, i.rd = some x → x < 32) ∧ (∀ x, i.rs1 = some x → x < 32) ∧
    (∀ x, i.rs2 = some x → x < 4096 ∧ ((∀ o, i.opc ≠ .Zicsr o) → x < 32)) := by
  rcases h with ⟨w, isa, h⟩ | ⟨w, isa, h⟩
  · exact C16_register_range32 w isa i h
  · obtain ⟨h1, h2, h3, -⟩ := C16_register_range16 w isa i h
    exact ⟨h1, h2, fun x hx => ⟨Nat.lt_trans (h3 x hx) (by omega), fun _ => h3 x hx⟩⟩

theorem hex_length {s : String} {n k : Nat} (h : isHex s n) (hi : n < 16 ^ k) (hk : 1 ≤ k) : s.length ≤ k := by
  rw [← String.length_toList]
  exact numeral_length (by omega) h hi hk

theorem hex32_length {s : String} {z : Int} (h : isHex32 s z) : s.length ≤ 8 := by
  rw [← String.length_toList]
  refine numeral_length (by omega) h ?_ (by omega)
  have := Int.emod_lt_of_pos z (show (0 : Int) < 2 ^ 32 by decide)
  have := Int.emod_nonneg z (show (2 : Int) ^ 32 ≠ 0 by decide)
  omega

/-- How many characters an item takes in the text of a decoded instruction, at most. -/
def argWidth (op : OpcodeKind) : Arg → Nat
  | .rd | .rs1 | .rs2 => 4
  | .lit t => t.length
  | .at1 => 7
  | .num1 => 2
  | .hex2 => 5
  | .num2 => 4
  | .imm => immWidth op
  | .immHex => 10
  | .immHexBare => 3
  | .immAt2 => immWidth op + 6
  | .immAtSp => immWidth op + 4

theorem addi4spn_imm (i : Instruction) (h : Decoded i) (ho : i.opc = .C .ADDI4SPN) (z : Int) (hz : i.imm = some z) :
    0 ≤ z ∧ z ≤ 1020 := by
  rcases h with ⟨w, isa, h⟩ | ⟨w, isa, h⟩
  · obtain ⟨r, hr, -⟩ := C16_immediate_range32 w isa i z h hz
    rw [ho] at hr
    cases hr
  · have hi := C16_immediate_range16 w isa i z h hz
    rw [ho] at hi
    exact ⟨hi.1, hi.2.1⟩

theorem arg_length (i : Instruction) (h : Decoded i) (as : List Arg) (ha : args i.opc = some as) (a : Arg) (hm : a ∈ as)
    (s : String) (hs : argText i a s) : s.length ≤ argWidth i.opc a := by
  obtain ⟨r1, r2, r3⟩ := decoded_regs_lt i h
  cases a with
  | rd | rs1 | rs2 => exact name_length hs
  | lit t => exact Nat.le_of_eq (congrArg String.length hs)
  | at1 =>
    obtain ⟨r, hr, rfl⟩ := hs
    have := name_length hr
    simp only [String.length_append, argWidth, show "0(".length = 2 from rfl, show ")".length = 1 from rfl]
    omega
  | num1 =>
    obtain ⟨n, hn, hs⟩ := hs
    exact natural_length (k := 2) hs (by have := r2 n hn; omega) (by omega)
  | hex2 =>
    obtain ⟨n, d, hn, hd, rfl⟩ := hs
    have := hex_length (k := 3) hd (by have := (r3 n hn).1; omega) (by omega)
    simp only [String.length_append, argWidth, show "0x".length = 2 from rfl]
    omega
  | num2 =>
    obtain ⟨n, hn, hs⟩ := hs
    exact natural_length (k := 4) hs (by have := (r3 n hn).1; omega) (by omega)
  | imm =>
    obtain ⟨z, hz, hs⟩ := hs
    exact imm_length i h hz hs
  | immHex =>
    obtain ⟨z, d, hz, hd, rfl⟩ := hs
    have := hex32_length hd
    simp only [String.length_append, argWidth, show "0x".length = 2 from rfl]
    omega
  | immHexBare =>
    obtain ⟨z, hz, hs⟩ := hs
    have ho : i.opc = .C .ADDI4SPN := by
      revert ha hm
      rcases i.opc with o | o | o | o | o | o | o | o | o | o
      all_goals cases o
      all_goals first
        | (intro _ _; rfl)
        | (intro ha; cases ha; simp; done)
        | (intro ha; cases ha)
    obtain ⟨h0, h1⟩ := addi4spn_imm i h ho z hz
    rw [isHex32, Int.emod_eq_of_lt h0 (by omega)] at hs
    exact hex_length (k := 3) hs (by omega) (by omega)
  | immAt2 =>
    obtain ⟨z, d, r, hz, hd, hr, rfl⟩ := hs
    have := name_length hr
    have := imm_length i h hz hd
    simp only [String.length_append, argWidth, show "(".length = 1 from rfl, show ")".length = 1 from rfl]
    omega
  | immAtSp =>
    obtain ⟨z, d, hz, hd, rfl⟩ := hs
    have := imm_length i h hz hd
    simp only [String.length_append, argWidth, show "(sp)".length = 4 from rfl]
    omega

/-- The width of items separated by comma and space. -/
def commasWidth : List Nat → Nat
  | [] => 0
  | [w] => w
  | w :: v :: r => w + 2 + commasWidth (v :: r)

theorem commas_length {i : Instruction} {f : Arg → Nat} {as : List Arg} {ss : List String}
    (hf : ∀ a ∈ as, ∀ s, argText i a s → s.length ≤ f a) (h : argTexts i as ss) :
    (commas ss).length ≤ commasWidth (as.map f) := by
  induction as generalizing ss with
  | nil =>
    cases ss with
    | nil => exact Nat.le_refl _
    | cons => exact h.elim
  | cons a as ih =>
    cases ss with
    | nil => exact h.elim
    | cons s ss =>
      have hs := hf a List.mem_cons_self s h.1
      have hr := ih (fun b hb => hf b (List.mem_cons_of_mem _ hb)) h.2
      cases as with
      | nil =>
        cases ss with
        | nil => exact hs
        | cons => exact h.2.elim
      | cons b as =>
        cases ss with
        | nil => exact h.2.elim
        | cons t ss =>
          simp only [commas, String.length_append, List.map_cons, commasWidth, show ", ".length = 2 from rfl]
          simp only [List.map_cons] at hr
          omega

theorem line_length {i : Instruction} {f : Arg → Nat} {as : List Arg} {ss : List String} (n : String)
    (hf : ∀ a ∈ as, ∀ s, argText i a s → s.length ≤ f a) (h : argTexts i as ss) :
    (line n ss).length ≤ n.length + 1 + commasWidth (as.map f) := by
  have := commas_length hf h
  cases ss with
  | nil => simp only [line]; omega
  | cons s ss =>
    simp only [line, String.length_append, show " ".length = 1 from rfl]
    omega

/-- C83.  The text of a decoded instruction has at most 28 characters, and some have 28. -/
theorem C83_display (i : Instruction) (h : Decoded i) (s : String) (hs : i.fmt = .ok s) : s.length ≤ 28 := by
  obtain ⟨as, ss, ha, ht, rfl⟩ := (C33_text i h s).1 hs
  refine Nat.le_trans (line_length _ (arg_length i h as ha) ht) ?_
  clear hs ht h
  revert ha
  rcases i.opc with o | o | o | o | o | o | o | o | o | o
  all_goals cases o
  all_goals intro ha
  all_goals cases ha
  all_goals decide

theorem C83_display_attained : ∃ i s, Decoded i ∧ i.fmt = .ok s ∧ s.length = 28 :=
  ⟨_, "ssamoswap.w zero, zero, zero", .inl ⟨0x4800202f, .Rv64, rfl⟩, rfl, rfl⟩

/-- C83.  A buffer of 28 characters takes the text of every decoded instruction that has one; a smaller buffer is
too small for some. -/
theorem C83_buffer (n : Nat) :
    let w : Sink (List Char) := fun s c => if s.length + c.length ≤ n then (s ++ c.toList, true) else (s, false)
    28 ≤ n ↔ ∀ i, Decoded i → i.fmt ≠ .panic → ∃ s, i.fmtTo w [] = .ok s () := by
  intro w
  constructor
  · intro hn i h hp
    cases hf : i.fmt with
    | ok t => exact (C65_buffer n i t hf).1.1 (Nat.le_trans (C83_display i h t hf) hn)
    | err e => rcases fmt_spec i with ⟨_, -, -, h3⟩ | ⟨-, h3⟩ <;> (rw [hf] at h3; cases h3)
    | panic => exact (hp hf).elim
  · intro h
    obtain ⟨i, t, hd, hf, hl⟩ := C83_display_attained
    have := (C65_buffer n i t hf).1.2 (h i hd (by rw [hf]; nofun))
    omega

/-! ## Any instruction value -/

/-- How many characters an item takes for an arbitrary value whose registers have at most `d` digits, at most. -/
def anyWidth (d : Nat) : Arg → Nat
  | .rd | .rs1 | .rs2 => 4
  | .lit t => t.length
  | .at1 => 7
  | .num1 | .num2 => d
  | .hex2 => d + 2
  | .imm => 11
  | .immHex => 10
  | .immHexBare => 8
  | .immAt2 => 17
  | .immAtSp => 15

theorem any_length (i : Instruction) (d : Nat) (hd : 1 ≤ d) (h1 : ∀ x, i.rs1 = some x → x < 10 ^ d)
    (h2 : ∀ x, i.rs2 = some x → x < 10 ^ d) (hi : ∀ z, i.imm = some z → -2 ^ 31 ≤ z ∧ z < 2 ^ 31) (a : Arg)
    (s : String) (hs : argText i a s) : s.length ≤ anyWidth d a := by
  have dec : ∀ z s, i.imm = some z → isDecimal s z → s.length ≤ 11 := fun z s hz hs =>
    decimal_length (k := 10) hs (by have := (hi z hz).1; omega) (by have := (hi z hz).2; omega) (by omega)
  cases a with
  | rd | rs1 | rs2 => exact name_length hs
  | lit t => exact Nat.le_of_eq (congrArg String.length hs)
  | at1 =>
    obtain ⟨r, hr, rfl⟩ := hs
    have := name_length hr
    simp only [String.length_append, anyWidth, show "0(".length = 2 from rfl, show ")".length = 1 from rfl]
    omega
  | num1 =>
    obtain ⟨n, hn, hs⟩ := hs
    exact natural_length hs (h1 n hn) hd
  | num2 =>
    obtain ⟨n, hn, hs⟩ := hs
    exact natural_length hs (h2 n hn) hd
  | hex2 =>
    obtain ⟨n, t, hn, ht, rfl⟩ := hs
    have := hex_length ht (Nat.lt_of_lt_of_le (h2 n hn) (Nat.pow_le_pow_left (by omega) d)) hd
    simp only [String.length_append, anyWidth, show "0x".length = 2 from rfl]
    omega
  | imm =>
    obtain ⟨z, hz, hs⟩ := hs
    exact dec z s hz hs
  | immHex =>
    obtain ⟨z, t, hz, ht, rfl⟩ := hs
    have := hex32_length ht
    simp only [String.length_append, anyWidth, show "0x".length = 2 from rfl]
    omega
  | immHexBare =>
    obtain ⟨z, hz, hs⟩ := hs
    exact hex32_length hs
  | immAt2 =>
    obtain ⟨z, t, r, hz, ht, hr, rfl⟩ := hs
    have := name_length hr
    have := dec z t hz ht
    simp only [String.length_append, anyWidth, show "(".length = 1 from rfl, show ")".length = 1 from rfl]
    omega
  | immAtSp =>
    obtain ⟨z, t, hz, ht, rfl⟩ := hs
    have := dec z t hz ht
    simp only [String.length_append, anyWidth, show "(sp)".length = 4 from rfl]
    omega

theorem printedName_length (op : OpcodeKind) : (printedName op).length ≤ 11 := by
  rcases op with o | o | o | o | o | o | o | o | o | o <;> cases o <;> decide

theorem any_display (i : Instruction) (d : Nat) (hd : 4 ≤ d) (h1 : ∀ x, i.rs1 = some x → x < 10 ^ d)
    (h2 : ∀ x, i.rs2 = some x → x < 10 ^ d) (hi : ∀ z, i.imm = some z → -2 ^ 31 ≤ z ∧ z < 2 ^ 31) (s : String)
    (hs : i.fmt = .ok s) : s.length ≤ d + 31 := by
  obtain ⟨as, ss, ha, ht, rfl⟩ := (C48_display_any i s).1 hs
  refine Nat.le_trans (line_length _ (fun a _ s hs => any_length i d (by omega) h1 h2 hi a s hs) ht) ?_
  have hn := printedName_length i.opc
  have hw : commasWidth (as.map (anyWidth d)) ≤ d + 19 := by
    clear hs ht
    revert ha
    generalize i.opc = op
    cases i.instFormat
    all_goals simp only [formatArgs]
    all_goals intro ha
    all_goals (repeat' split at ha)
    all_goals cases ha
    all_goals simp only [List.map_cons, List.map_nil, commasWidth, anyWidth, show "sp".length = 2 from rfl,
      show "zero".length = 4 from rfl, show "ra".length = 2 from rfl]
    all_goals omega
  omega

/-- C83.  The text of any instruction value at all, whose fields hold what a 64-bit target can hold, has at most 51
characters. -/
theorem C83_any64 (i : Instruction) (h1 : ∀ x, i.rs1 = some x → x < 2 ^ 64) (h2 : ∀ x, i.rs2 = some x → x < 2 ^ 64)
    (hi : ∀ z, i.imm = some z → -2 ^ 31 ≤ z ∧ z < 2 ^ 31) (s : String) (hs : i.fmt = .ok s) : s.length ≤ 51 :=
  any_display i 20 (by omega) (fun x hx => by have := h1 x hx; omega) (fun x hx => by have := h2 x hx; omega) hi s hs

/-- C83.  On a 32-bit target it has at most 41. -/
theorem C83_any32 (i : Instruction) (h1 : ∀ x, i.rs1 = some x → x < 2 ^ 32) (h2 : ∀ x, i.rs2 = some x → x < 2 ^ 32)
    (hi : ∀ z, i.imm = some z → -2 ^ 31 ≤ z ∧ z < 2 ^ 31) (s : String) (hs : i.fmt = .ok s) : s.length ≤ 41 :=
  any_display i 10 (by omega) (fun x hx => by have := h1 x hx; omega) (fun x hx => by have := h2 x hx; omega) hi s hs

/-- A value that makes the text as long as it can be, with `n` as the CSR number. -/
def longest (n : Nat) : Instruction :=
  { opc := .Zicfiss .SSAMOSWAP_W, rd := some 0, rs1 := none, rs2 := some n, imm := some (-2147483648),
    instFormat := .CsrUiFormat, isCompressed := false }

theorem C83_any_attained : (longest (2 ^ 64 - 1)).fmt = .ok "ssamoswap.w zero, 18446744073709551615, -2147483648" ∧
    (longest (2 ^ 32 - 1)).fmt = .ok "ssamoswap.w zero, 4294967295, -2147483648" ∧
    "ssamoswap.w zero, 18446744073709551615, -2147483648".length = 51 ∧
    "ssamoswap.w zero, 4294967295, -2147483648".length = 41 := ⟨rfl, rfl, rfl, rfl⟩

/-! ## Debug text -/

theorem option_length {s : String} {o : Option Int} {k : Nat} (h : isOption s o)
    (hk : ∀ z d, o = some z → isDecimal d z → d.length ≤ k) : s.length ≤ if o.isSome then k + 6 else 4 := by
  cases o with
  | none => rw [show s = "None" from h]; exact Nat.le_refl _
  | some z =>
    obtain ⟨d, hd, rfl⟩ := h
    have := hk z d rfl hd
    simp only [String.length_append, Option.isSome_some, if_true, show "Some(".length = 5 from rfl,
      show ")".length = 1 from rfl]
    omega

/-- How many digits `rs2` takes, at most. -/
def rs2Width : OpcodeKind → Nat
  | .Zicsr _ => 4
  | _ => 2

theorem rs2_length (i : Instruction) (h : Decoded i) {n : Nat} (hn : i.rs2 = some n) {d : String}
    (hd : isDecimal d n) : d.length ≤ rs2Width i.opc := by
  obtain ⟨-, -, h2⟩ := decoded_regs_lt i h
  obtain ⟨ha, hb⟩ := h2 n hn
  by_cases hz : ∃ o, i.opc = .Zicsr o
  · obtain ⟨o, ho⟩ := hz
    rw [ho]
    exact natural_length (k := 4) hd (by omega) (by omega)
  · have := natural_length (k := 2) hd (by have := hb (fun o ho => hz ⟨o, ho⟩); omega) (by omega)
    refine Nat.le_trans this ?_
    unfold rs2Width
    split <;> omega

/-- The width of an optional operand. -/
def optionWidth (op : OpcodeKind) (x : Operand) (k : Nat) : Nat := if x ∈ reported op then k + 6 else 4

theorem option_lengths (i : Instruction) (h : Decoded i) {rd rs1 rs2 imm : String}
    (h1 : isOption rd (i.rd.map Int.ofNat)) (h2 : isOption rs1 (i.rs1.map Int.ofNat))
    (h3 : isOption rs2 (i.rs2.map Int.ofNat)) (h4 : isOption imm i.imm) :
    rd.length ≤ optionWidth i.opc .rd 2 ∧ rs1.length ≤ optionWidth i.opc .rs1 2 ∧
    rs2.length ≤ optionWidth i.opc .rs2 (rs2Width i.opc) ∧ imm.length ≤ optionWidth i.opc .imm (immWidth i.opc) := by
  obtain ⟨r1, r2, -⟩ := decoded_regs_lt i h
  have p := C17_reported i h
  have p1 := p .rd
  have p2 := p .rs1
  have p3 := p .rs2
  have p4 := p .imm
  simp only [hasOperand] at p1 p2 p3 p4
  have nat : ∀ {o : Option Nat} {k : Nat} {s : String} (x : Operand), (o.isSome = true ↔ x ∈ reported i.opc) →
      isOption s (o.map Int.ofNat) → (∀ n d, o = some n → isDecimal d n → d.length ≤ k) →
      s.length ≤ optionWidth i.opc x k := by
    intro o k s x hp hs hk
    have := option_length (k := k) hs (fun z d hz hd => by
      cases o with
      | none => cases hz
      | some n =>
        injection hz with hz
        subst hz
        exact hk n d rfl hd)
    rw [Option.isSome_map] at this
    unfold optionWidth
    by_cases hx : x ∈ reported i.opc
    · rw [hp.2 hx] at this; rw [if_pos hx]; exact this
    · rw [if_neg (fun e => hx (hp.1 e))] at this; rw [if_neg hx]; exact this
  refine ⟨nat .rd p1 h1 fun n d hn hd => natural_length (k := 2) hd (by have := r1 n hn; omega) (by omega),
    nat .rs1 p2 h2 fun n d hn hd => natural_length (k := 2) hd (by have := r2 n hn; omega) (by omega),
    nat .rs2 p3 h3 fun n d hn hd => rs2_length i h hn hd, ?_⟩
  have := option_length h4 (fun z d hz hd => imm_length i h hz hd)
  unfold optionWidth
  by_cases hx : Operand.imm ∈ reported i.opc
  · rw [p4.2 hx] at this; rw [if_pos hx]; exact this
  · rw [if_neg (fun e => hx (p4.1 e))] at this; rw [if_neg hx]; exact this

/-- C83.  The debug text of a decoded instruction has at most 140 characters. -/
theorem C83_debug (i : Instruction) (h : Decoded i) : i.debug.length ≤ 140 := by
  obtain ⟨rd, rs1, rs2, imm, h1, h2, h3, h4, e⟩ := (C55_debug_text i i.debug).1 rfl
  obtain ⟨w1, w2, w3, w4⟩ := option_lengths i h h1 h2 h3 h4
  have hb : (if i.isCompressed then "true" else "false").length ≤ 5 := by split <;> decide
  rw [e, decoded_format i h]
  simp only [String.length_append]
  clear h1 h2 h3 h4 e
  have key : ∀ op : OpcodeKind, (extensionName op).length + (opcodeName op).length + optionWidth op .rd 2 +
      optionWidth op .rs1 2 + optionWidth op .rs2 (rs2Width op) + optionWidth op .imm (immWidth op) +
      (formatName op.getFormat).length ≤ 53 := by
    intro op
    rcases op with o | o | o | o | o | o | o | o | o | o <;> cases o <;> decide
  have := key i.opc
  simp only [show "Instruction { opc: ".length = 19 from rfl, show "(".length = 1 from rfl,
    show "), rd: ".length = 7 from rfl, show ", rs1: ".length = 7 from rfl, show ", rs2: ".length = 7 from rfl,
    show ", imm: ".length = 7 from rfl, show ", inst_format: ".length = 15 from rfl,
    show ", is_compressed: ".length = 17 from rfl, show " }".length = 2 from rfl]
  omega

set_option maxRecDepth 4000 in
theorem C83_debug_attained : ∃ i, Decoded i ∧ i.debug.length = 140 :=
  ⟨_, .inl ⟨0x49ffafaf, .Rv64, rfl⟩, rfl⟩

/-! ## Indented debug text -/

theorem lines_length (l : String) (ls : List String) :
    (lines (l :: ls)).length + 1 = ((l :: ls).map (·.length + 1)).sum := by
  induction ls generalizing l with
  | nil => simp [lines]
  | cons m ls ih =>
    have := ih m
    simp only [lines, String.length_append, List.map_cons, List.sum_cons, show "\n".length = 1 from rfl] at this ⊢
    omega

theorem optionLines_length {key : String} {ls : List String} {o : Option Int} {k : Nat} (h : isOptionLines key ls o)
    (hk : ∀ z d, o = some z → isDecimal d z → d.length ≤ k) :
    (ls.map (·.length + 1)).sum ≤ key.length + if o.isSome then k + 29 else 12 := by
  cases o with
  | none =>
    rw [show ls = _ from h]
    simp only [List.map_cons, List.map_nil, List.sum_cons, List.sum_nil, String.length_append, Option.isSome_none,
      show "    ".length = 4 from rfl, show ": None,".length = 7 from rfl]
    simp only [Bool.false_eq_true, if_false]
    omega
  | some z =>
    obtain ⟨d, hd, rfl⟩ := h
    have := hk z d rfl hd
    simp only [List.map_cons, List.map_nil, List.sum_cons, List.sum_nil, String.length_append, Option.isSome_some,
      show "    ".length = 4 from rfl, show ": Some(".length = 7 from rfl, show "        ".length = 8 from rfl,
      show ",".length = 1 from rfl, show "    ),".length = 6 from rfl, if_true]
    omega

/-- The width of the lines of an optional operand, beside its name. -/
def linesWidth (op : OpcodeKind) (x : Operand) (k : Nat) : Nat := if x ∈ reported op then k + 29 else 12

theorem lines_lengths (i : Instruction) (h : Decoded i) {rd rs1 rs2 imm : List String}
    (h1 : isOptionLines "rd" rd (i.rd.map Int.ofNat)) (h2 : isOptionLines "rs1" rs1 (i.rs1.map Int.ofNat))
    (h3 : isOptionLines "rs2" rs2 (i.rs2.map Int.ofNat)) (h4 : isOptionLines "imm" imm i.imm) :
    (rd.map (·.length + 1)).sum ≤ 2 + linesWidth i.opc .rd 2 ∧
    (rs1.map (·.length + 1)).sum ≤ 3 + linesWidth i.opc .rs1 2 ∧
    (rs2.map (·.length + 1)).sum ≤ 3 + linesWidth i.opc .rs2 (rs2Width i.opc) ∧
    (imm.map (·.length + 1)).sum ≤ 3 + linesWidth i.opc .imm (immWidth i.opc) := by
  obtain ⟨r1, r2, -⟩ := decoded_regs_lt i h
  have p := C17_reported i h
  have p1 := p .rd
  have p2 := p .rs1
  have p3 := p .rs2
  have p4 := p .imm
  simp only [hasOperand] at p1 p2 p3 p4
  have nat : ∀ {o : Option Nat} {k : Nat} {key : String} {ls : List String} (x : Operand),
      (o.isSome = true ↔ x ∈ reported i.opc) → isOptionLines key ls (o.map Int.ofNat) →
      (∀ n d, o = some n → isDecimal d n → d.length ≤ k) →
      (ls.map (·.length + 1)).sum ≤ key.length + linesWidth i.opc x k := by
    intro o k key ls x hp hs hk
    have := optionLines_length (k := k) hs (fun z d hz hd => by
      cases o with
      | none => cases hz
      | some n =>
        injection hz with hz
        subst hz
        exact hk n d rfl hd)
    rw [Option.isSome_map] at this
    unfold linesWidth
    by_cases hx : x ∈ reported i.opc
    · rw [hp.2 hx] at this; rw [if_pos hx]; exact this
    · rw [if_neg (fun e => hx (hp.1 e))] at this; rw [if_neg hx]; exact this
  refine ⟨nat .rd p1 h1 fun n d hn hd => natural_length (k := 2) hd (by have := r1 n hn; omega) (by omega),
    nat .rs1 p2 h2 fun n d hn hd => natural_length (k := 2) hd (by have := r2 n hn; omega) (by omega),
    nat .rs2 p3 h3 fun n d hn hd => rs2_length i h hn hd, ?_⟩
  have := optionLines_length h4 (fun z d hz hd => imm_length i h hz hd)
  unfold linesWidth
  by_cases hx : Operand.imm ∈ reported i.opc
  · rw [p4.2 hx] at this; rw [if_pos hx]; exact this
  · rw [if_neg (fun e => hx (p4.1 e))] at this; rw [if_neg hx]; exact this

/-- C83.  The indented debug text of a decoded instruction has at most 239 characters. -/
theorem C83_pretty (i : Instruction) (h : Decoded i) : i.debugPretty.length ≤ 239 := by
  obtain ⟨rd, rs1, rs2, imm, h1, h2, h3, h4, e⟩ := (C66_pretty_text i i.debugPretty).1 rfl
  obtain ⟨w1, w2, w3, w4⟩ := lines_lengths i h h1 h2 h3 h4
  have hb : (if i.isCompressed then "true" else "false").length ≤ 5 := by split <;> decide
  have hl := congrArg (fun s => s.length + 1) e
  simp only [List.cons_append, List.nil_append, lines_length, List.append_assoc] at hl
  simp only [List.map_cons, List.map_nil, List.sum_cons, List.sum_nil, List.map_append, List.sum_append,
    String.length_append] at hl
  rw [decoded_format i h] at hl
  clear h1 h2 h3 h4 e
  have key : ∀ op : OpcodeKind, (extensionName op).length + (opcodeName op).length + linesWidth op .rd 2 +
      linesWidth op .rs1 2 + linesWidth op .rs2 (rs2Width op) + linesWidth op .imm (immWidth op) +
      (formatName op.getFormat).length ≤ 140 := by
    intro op
    rcases op with o | o | o | o | o | o | o | o | o | o <;> cases o <;> decide
  have := key i.opc
  simp only [show "Instruction {".length = 13 from rfl, show "    opc: ".length = 9 from rfl,
    show "(".length = 1 from rfl, show "        ".length = 8 from rfl, show ",".length = 1 from rfl,
    show "    ),".length = 6 from rfl, show "    inst_format: ".length = 17 from rfl,
    show "    is_compressed: ".length = 19 from rfl, show "}".length = 1 from rfl] at hl
  omega

set_option maxRecDepth 8000 in
theorem C83_pretty_attained : ∃ i, Decoded i ∧ i.debugPretty.length = 239 :=
  ⟨_, .inl ⟨0x0fffafaf, .Rv64, rfl⟩, rfl⟩

end Raki
