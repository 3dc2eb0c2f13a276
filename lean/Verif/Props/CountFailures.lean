import Verif.Props.CountErrors
import Verif.Props.CountPrograms
/-!
# How many memories are rejected with each error

For every length: the memories in which reading stops at each error, those that end in the first half of a word, and
those that are programs are counted, and are all memories.
-/

namespace Raki

open Spec

/-- The number of sequences of total width `n` of items of width one, of which there are `a`, and of width two, of
which there are `b`, up to a last item: of width one, of which there are `c`, with any halfwords after it; of width two,
of which there are `d`, with any halfwords after it; or of width one, of which there are `z - c`, with nothing after
it. -/
def endings (a b c d z : Nat) : Nat → Nat
  | 0 => 0
  | 1 => z
  | n + 2 => a * endings a b c d z (n + 1) + b * endings a b c d z n + c * 65536 ^ (n + 1) + d * 65536 ^ n

/-! ## Lists of memories -/

/-- The memories of `n` halfwords. -/
def isMemory (n : Nat) (hs : List Nat) : Prop := hs.length = n ∧ ∀ h ∈ hs, h < 2 ^ 16

theorem isMemory_half {n h : Nat} {x : List Nat} : isMemory (n + 1) (h :: x) ↔ h < 2 ^ 16 ∧ isMemory n x := by
  simp only [isMemory, List.length_cons, List.forall_mem_cons, Nat.add_right_cancel_iff]
  exact and_left_comm

theorem half_list (p : Nat → Bool) {Q : List Nat → Prop} {X : List (List Nat)} (h1 : X.Nodup)
    (h2 : ∀ x, x ∈ X ↔ Q x) : ∃ L : List (List Nat), L.Nodup ∧
      (∀ l, l ∈ L ↔ ∃ h x, h < 2 ^ 16 ∧ p h = true ∧ Q x ∧ l = h :: x) ∧
      L.length = countBelow (2 ^ 16) p * X.length := by
  obtain ⟨A, a1, a2, a3⟩ := list_of_values (2 ^ 16) p (fun h => some h) (fun _ _ _ => rfl)
    (fun x y a _ _ _ _ h h' => by rw [← h'] at h; simpa using h)
  obtain ⟨L, l1, l2, l3⟩ := prepend_list (fun h => [h]) X h1 A a1
    (fun a _ b _ x y e => by simpa using (List.cons.inj e).1)
  refine ⟨L, l1, fun l => ?_, by rw [l3, a3]⟩
  rw [l2]
  constructor
  · rintro ⟨a, ha, x, hx, rfl⟩
    obtain ⟨h, g1, g2, g3⟩ := (a2 a).1 ha
    rw [← Option.some.inj g3]
    exact ⟨h, x, g1, g2, (h2 x).1 hx, rfl⟩
  · rintro ⟨h, x, g1, g2, hx, rfl⟩
    exact ⟨h, (a2 h).2 ⟨h, g1, g2, rfl⟩, x, (h2 x).2 hx, rfl⟩

theorem word_list (p : Nat → Bool) {Q : List Nat → Prop} {X : List (List Nat)} (h1 : X.Nodup)
    (h2 : ∀ x, x ∈ X ↔ Q x) : ∃ L : List (List Nat), L.Nodup ∧
      (∀ l, l ∈ L ↔ ∃ w x, w < 2 ^ 32 ∧ p w = true ∧ Q x ∧ l = w % 2 ^ 16 :: w / 2 ^ 16 :: x) ∧
      L.length = countBelow (2 ^ 32) p * X.length := by
  obtain ⟨A, a1, a2, a3⟩ := list_of_values (2 ^ 32) p (fun h => some h) (fun _ _ _ => rfl)
    (fun x y a _ _ _ _ h h' => by rw [← h'] at h; simpa using h)
  obtain ⟨L, l1, l2, l3⟩ := prepend_list (fun w => [w % 2 ^ 16, w / 2 ^ 16]) X h1 A a1 (fun a _ b _ x y e => by
    simp only [List.cons_append, List.nil_append, List.cons.injEq] at e
    omega)
  refine ⟨L, l1, fun l => ?_, by rw [l3, a3]⟩
  rw [l2]
  constructor
  · rintro ⟨a, ha, x, hx, rfl⟩
    obtain ⟨h, g1, g2, g3⟩ := (a2 a).1 ha
    rw [← Option.some.inj g3]
    exact ⟨h, x, g1, g2, (h2 x).1 hx, rfl⟩
  · rintro ⟨h, x, g1, g2, hx, rfl⟩
    exact ⟨h, (a2 h).2 ⟨h, g1, g2, rfl⟩, x, (h2 x).2 hx, rfl⟩

theorem append_lists {L K : List (List Nat)} {P Q : List Nat → Prop} (h1 : L.Nodup) (h2 : ∀ l, l ∈ L ↔ P l)
    (k1 : K.Nodup) (k2 : ∀ l, l ∈ K ↔ Q l) (hd : ∀ l, P l → Q l → False) :
    (L ++ K).Nodup ∧ ∀ l, l ∈ L ++ K ↔ P l ∨ Q l := by
  refine ⟨List.nodup_append.2 ⟨h1, k1, ?_⟩, fun l => by rw [List.mem_append, h2, k2]⟩
  rintro l hl k hk rfl
  exact hd l ((h2 l).1 hl) ((k2 l).1 hk)

/-- There are 65536^n memories of `n` halfwords. -/
theorem all_memories (n : Nat) :
    ∃ L : List (List Nat), L.Nodup ∧ (∀ hs, hs ∈ L ↔ isMemory n hs) ∧ L.length = 65536 ^ n := by
  induction n with
  | zero => exact ⟨[[]], by simp, by simp +contextual [isMemory], rfl⟩
  | succ n ih =>
    obtain ⟨X, x1, x2, x3⟩ := ih
    obtain ⟨L, l1, l2, l3⟩ := half_list (fun _ => true) x1 x2
    refine ⟨L, l1, fun l => ?_, ?_⟩
    · rw [l2]
      constructor
      · rintro ⟨h, x, h1, -, hx, rfl⟩
        exact isMemory_half.2 ⟨h1, hx⟩
      · intro hm
        match l with
        | [] => exact absurd hm.1 (by simp)
        | h :: x => exact ⟨h, x, (isMemory_half.1 hm).1, rfl, (isMemory_half.1 hm).2, rfl⟩
    · rw [l3, x3, countBelow_true, Nat.mul_comm]
      rfl

/-! ## Where reading stops -/

/-- The halfwords at which reading stops with an error of `g`. -/
def stop16 (isa : Isa) (g : DecodingError → Bool) (h : Nat) : Bool :=
  decide (h % 4 ≠ 3) && (errorOf16 isa h).any g

/-- The words, likewise. -/
def stop32 (isa : Isa) (g : DecodingError → Bool) (w : Nat) : Bool :=
  decide (w % 4 = 3) && (errorOf32 isa w).any g

theorem stop16_iff {isa : Isa} {g : DecodingError → Bool} {h : Nat} : stop16 isa g h = true ↔
    h % 4 ≠ 3 ∧ ∃ e, U16.decode (BitVec.ofNat 16 h) isa = .err e ∧ g e = true := by
  rw [stop16, errorOf16, Bool.and_eq_true, decide_eq_true_iff]
  cases U16.decode (BitVec.ofNat 16 h) isa <;> simp

theorem stop32_iff {isa : Isa} {g : DecodingError → Bool} {w : Nat} : stop32 isa g w = true ↔
    w % 4 = 3 ∧ ∃ e, U32.decode (BitVec.ofNat 32 w) isa = .err e ∧ g e = true := by
  rw [stop32, errorOf32, Bool.and_eq_true, decide_eq_true_iff]
  cases U32.decode (BitVec.ofNat 32 w) isa <;> simp

/-- A result of reading that only depends on where reading stops: at an error of `g`, or, if `tail`, at the first half
of a word. -/
structure Ending (E : RustM (List Instruction × List Nat) → Prop) (g : DecodingError → Bool) (tail : Bool) : Prop where
  nil : ¬E (.ok ([], []))
  half : ∀ h, E (.ok ([], [h])) ↔ tail = true
  err : ∀ e, E (.err e) ↔ g e = true
  cons : ∀ i p t, E (.ok (i :: p, t)) ↔ E (.ok (p, t))

theorem Ending.bind {E : RustM (List Instruction × List Nat) → Prop} {g : DecodingError → Bool} {tail : Bool}
    (hE : Ending E g tail) (i : Instruction) {r : RustM (List Instruction × List Nat)} (hr : r ≠ .panic) :
    E (r.bind fun r => .ok (i :: r.1, r.2)) ↔ E r := by
  match r with
  | .ok (p, t) => exact hE.cons i p t
  | .err e => exact Iff.rfl
  | .panic => contradiction

theorem ending_half {E : RustM (List Instruction × List Nat) → Prop} {g : DecodingError → Bool} {tail : Bool}
    (hE : Ending E g tail) (isa : Isa) (h : Nat) (x : List Nat) (h3 : h % 4 ≠ 3) : E (sweepAt isa (h :: x)) ↔
      ((opcodeOf16 isa h).isSome = true ∧ E (sweepAt isa x)) ∨ stop16 isa g h = true := by
  rw [sweepAt_half _ _ _ h3, opcode16_some, stop16_iff]
  cases hd : U16.decode (BitVec.ofNat 16 h) isa with
  | ok i =>
    show E ((sweepAt isa x).bind fun r => .ok (i :: r.1, r.2)) ↔ _
    rw [hE.bind i (C52_no_panic isa x)]
    simp
  | err e => simp [RustM.bind, hE.err, h3]
  | panic => exact absurd hd (decode16_no_panic _ _)

theorem ending_word {E : RustM (List Instruction × List Nat) → Prop} {g : DecodingError → Bool} {tail : Bool}
    (hE : Ending E g tail) (isa : Isa) (w : Nat) (x : List Nat) (h3 : w % 4 = 3) :
    E (sweepAt isa (w % 2 ^ 16 :: w / 2 ^ 16 :: x)) ↔
      ((opcodeOf32 isa w).isSome = true ∧ E (sweepAt isa x)) ∨ stop32 isa g w = true := by
  rw [sweepAt_word _ _ _ _ (by omega), show w % 2 ^ 16 + w / 2 ^ 16 * 2 ^ 16 = w by omega, opcode32_some, stop32_iff]
  cases hd : U32.decode (BitVec.ofNat 32 w) isa with
  | ok i =>
    show E ((sweepAt isa x).bind fun r => .ok (i :: r.1, r.2)) ↔ _
    rw [hE.bind i (C52_no_panic isa x)]
    simp
  | err e => simp [RustM.bind, hE.err, h3]
  | panic => exact absurd hd (decode32_no_panic _ _)

theorem low_opcode16 {isa : Isa} {h : Nat} (hb : h < 2 ^ 16) (ho : (opcodeOf16 isa h).isSome = true) : h % 4 ≠ 3 := by
  obtain ⟨i, hi⟩ := opcode16_some.1 ho
  exact low16 hb hi

theorem low_opcode32 {isa : Isa} {w : Nat} (hb : w < 2 ^ 32) (ho : (opcodeOf32 isa w).isSome = true) : w % 4 = 3 := by
  obtain ⟨i, hi⟩ := opcode32_some.1 ho
  exact low32 hb hi

/-- The first item of a memory of two halfwords or more. -/
theorem ending_step {E : RustM (List Instruction × List Nat) → Prop} {g : DecodingError → Bool} {tail : Bool}
    (hE : Ending E g tail) (isa : Isa) (n : Nat) (l : List Nat) : (isMemory (n + 2) l ∧ E (sweepAt isa l)) ↔
      ((((∃ h x, h < 2 ^ 16 ∧ (opcodeOf16 isa h).isSome = true ∧ (isMemory (n + 1) x ∧ E (sweepAt isa x)) ∧
        l = h :: x) ∨
      (∃ w x, w < 2 ^ 32 ∧ (opcodeOf32 isa w).isSome = true ∧ (isMemory n x ∧ E (sweepAt isa x)) ∧
        l = w % 2 ^ 16 :: w / 2 ^ 16 :: x)) ∨
      (∃ h x, h < 2 ^ 16 ∧ stop16 isa g h = true ∧ isMemory (n + 1) x ∧ l = h :: x)) ∨
      (∃ w x, w < 2 ^ 32 ∧ stop32 isa g w = true ∧ isMemory n x ∧ l = w % 2 ^ 16 :: w / 2 ^ 16 :: x)) := by
  have word {w : Nat} (hw : w < 2 ^ 32) {x : List Nat} (hx : isMemory n x) :
      isMemory (n + 2) (w % 2 ^ 16 :: w / 2 ^ 16 :: x) := by
    rw [isMemory_half, isMemory_half]
    exact ⟨by omega, by omega, hx⟩
  constructor
  · rintro ⟨hm, he⟩
    match l with
    | [] => exact absurd hm.1 (by simp)
    | [_] => exact absurd hm.1 (by simp)
    | h :: k :: x =>
      obtain ⟨hh, hm⟩ := isMemory_half.1 hm
      by_cases h3 : h % 4 = 3
      · obtain ⟨hk, hx⟩ := isMemory_half.1 hm
        have e1 : (h + k * 2 ^ 16) % 2 ^ 16 = h := by omega
        have e2 : (h + k * 2 ^ 16) / 2 ^ 16 = k := by omega
        have := ending_word hE isa (h + k * 2 ^ 16) x (by omega)
        rw [e1, e2] at this
        rcases this.1 he with ⟨ho, he⟩ | hs
        · exact .inl (.inl (.inr ⟨h + k * 2 ^ 16, x, by omega, ho, ⟨hx, he⟩, by rw [e1, e2]⟩))
        · exact .inr ⟨h + k * 2 ^ 16, x, by omega, hs, hx, by rw [e1, e2]⟩
      · rcases (ending_half hE isa h _ h3).1 he with ⟨ho, he⟩ | hs
        · exact .inl (.inl (.inl ⟨h, _, hh, ho, ⟨hm, he⟩, rfl⟩))
        · exact .inl (.inr ⟨h, _, hh, hs, hm, rfl⟩)
  · rintro (((⟨h, x, hh, ho, ⟨hx, he⟩, rfl⟩ | ⟨w, x, hw, ho, ⟨hx, he⟩, rfl⟩) | ⟨h, x, hh, hs, hx, rfl⟩) |
      ⟨w, x, hw, hs, hx, rfl⟩)
    · exact ⟨isMemory_half.2 ⟨hh, hx⟩, (ending_half hE isa h x (low_opcode16 hh ho)).2 (.inl ⟨ho, he⟩)⟩
    · exact ⟨word hw hx, (ending_word hE isa w x (low_opcode32 hw ho)).2 (.inl ⟨ho, he⟩)⟩
    · exact ⟨isMemory_half.2 ⟨hh, hx⟩, (ending_half hE isa h x (stop16_iff.1 hs).1).2 (.inr hs)⟩
    · exact ⟨word hw hx, (ending_word hE isa w x (stop32_iff.1 hs).1).2 (.inr hs)⟩

/-- Counting the memories in which reading stops in a given way. -/
theorem endings_list {E : RustM (List Instruction × List Nat) → Prop} {g : DecodingError → Bool} {tail : Bool}
    (hE : Ending E g tail) (isa : Isa) (n : Nat) : ∃ L : List (List Nat), L.Nodup ∧
      (∀ hs, hs ∈ L ↔ isMemory n hs ∧ E (sweepAt isa hs)) ∧ L.length =
        endings (countBelow (2 ^ 16) fun h => (opcodeOf16 isa h).isSome)
          (countBelow (2 ^ 32) fun w => (opcodeOf32 isa w).isSome) (countBelow (2 ^ 16) (stop16 isa g))
          (countBelow (2 ^ 32) (stop32 isa g))
          (countBelow (2 ^ 16) fun h => stop16 isa g h || (tail && decide (h % 4 = 3))) n := by
  induction n using sequences.induct with
  | case1 =>
    refine ⟨[], List.nodup_nil, fun l => ⟨fun h => absurd h List.not_mem_nil, ?_⟩, rfl⟩
    rintro ⟨⟨h1, -⟩, h2⟩
    rw [List.length_eq_zero_iff.1 h1] at h2
    exact absurd h2 hE.nil
  | case2 =>
    obtain ⟨L, l1, l2, l3⟩ := half_list (fun h => stop16 isa g h || (tail && decide (h % 4 = 3))) (X := [[]])
      (Q := fun x => x = []) (by simp) (by simp)
    refine ⟨L, l1, fun l => ?_, by simpa [endings] using l3⟩
    rw [l2]
    have one (h : Nat) : E (sweepAt isa [h]) ↔ (stop16 isa g h || (tail && decide (h % 4 = 3))) = true := by
      by_cases h3 : h % 4 = 3
      · rw [sweepAt, if_pos h3, hE.half]
        simp [stop16, h3]
      · rw [ending_half hE isa h [] h3]
        simp [sweepAt, hE.nil, h3]
    constructor
    · rintro ⟨h, x, h1, h2, rfl, rfl⟩
      exact ⟨⟨rfl, by simpa using h1⟩, (one h).2 h2⟩
    · rintro ⟨h1, h2⟩
      match l with
      | [] => exact absurd h1.1 (by simp)
      | [h] => exact ⟨h, [], h1.2 h (by simp), (one h).1 h2, rfl, rfl⟩
      | _ :: _ :: _ => exact absurd h1.1 (by simp)
  | case3 n ih1 ih2 =>
    obtain ⟨X, x1, x2, x3⟩ := ih1
    obtain ⟨Y, y1, y2, y3⟩ := ih2
    obtain ⟨U, u1, u2, u3⟩ := all_memories (n + 1)
    obtain ⟨V, v1, v2, v3⟩ := all_memories n
    obtain ⟨A, a1, a2, a3⟩ := half_list (fun h => (opcodeOf16 isa h).isSome) x1 x2
    obtain ⟨B, b1, b2, b3⟩ := word_list (fun w => (opcodeOf32 isa w).isSome) y1 y2
    obtain ⟨C, c1, c2, c3⟩ := half_list (stop16 isa g) u1 u2
    obtain ⟨D, d1, d2, d3⟩ := word_list (stop32 isa g) v1 v2
    obtain ⟨k1, k2⟩ := append_lists a1 a2 b1 b2 (by
      rintro l ⟨h, x, hh, ho, -, rfl⟩ ⟨w, y, hw, ho', -, e⟩
      have h1 := low_opcode16 hh ho
      have h2 := low_opcode32 hw ho'
      have := (List.cons.inj e).1
      omega)
    obtain ⟨m1, m2⟩ := append_lists k1 k2 c1 c2 (by
      rintro l (⟨h, x, hh, ho, -, rfl⟩ | ⟨w, x, hw, ho, -, rfl⟩) ⟨k, y, hk, hs, -, e⟩
      · obtain ⟨i, hi⟩ := opcode16_some.1 ho
        obtain ⟨-, e', he, -⟩ := stop16_iff.1 hs
        rw [← (List.cons.inj e).1, hi] at he
        cases he
      · have h2 := low_opcode32 hw ho
        have := (List.cons.inj e).1
        have := (stop16_iff.1 hs).1
        omega)
    obtain ⟨n1, n2⟩ := append_lists m1 m2 d1 d2 (by
      rintro l ((⟨h, x, hh, ho, -, rfl⟩ | ⟨w, x, hw, ho, -, rfl⟩) | ⟨h, x, hh, hs', -, rfl⟩) ⟨k, y, hk, hs, -, e⟩
      · have h2 := low_opcode16 hh ho
        have := (List.cons.inj e).1
        have := (stop32_iff.1 hs).1
        omega
      · obtain ⟨i, hi⟩ := opcode32_some.1 ho
        obtain ⟨-, e', he, -⟩ := stop32_iff.1 hs
        simp only [List.cons.injEq] at e
        rw [← show w = k by omega, hi] at he
        cases he
      · have h2 := (stop16_iff.1 hs').1
        have := (List.cons.inj e).1
        have := (stop32_iff.1 hs).1
        omega)
    refine ⟨A ++ B ++ C ++ D, n1, fun l => ?_, ?_⟩
    · rw [n2, ending_step hE isa n l]
    · rw [List.length_append, List.length_append, List.length_append, a3, b3, c3, d3, x3, y3, u3, v3, endings]

/-! ## The numbers -/

/-- The number of halfwords, not first halves of words, that are rejected with each error. -/
def stops16 : Isa → DecodingError → Nat
  | _, .InvalidOpcode => 10368
  | .Rv32, .OnlyRv64Inst => 8320
  | _, .IllegalInstruction => 1
  | _, _ => 0

/-- The number of words, whose first halves are first halves of words, that are rejected with each error. -/
def stops32 : Isa → DecodingError → Nat
  | _, .InvalidOpcode => 612365280
  | isa, e => errors32 isa e

theorem low_count16 : countBelow (2 ^ 16) (fun h => decide (h % 4 = 3)) = 16384 := by
  refine Eq.trans (countBelow_congr fun h _ => ?_) (region_count (k := 16) [[(2, .isIn [3]), (14, .any)]] (by decide))
  rw [Bool.eq_iff_iff]
  simp [Region.has, Cube.has, Slot.has]

theorem low_count32 : countBelow (2 ^ 32) (fun h => decide (h % 4 ≠ 3)) = 3221225472 := by
  refine Eq.trans (countBelow_congr fun h _ => ?_)
    (region_count (k := 32) [[(2, .isIn [0, 1, 2]), (30, .any)]] (by decide))
  rw [Bool.eq_iff_iff]
  simp [Region.has, Cube.has, Slot.has]
  omega

theorem stop16_count (isa : Isa) (e : DecodingError) :
    countBelow (2 ^ 16) (stop16 isa fun x => decide (x = e)) = stops16 isa e := by
  by_cases ho : e = .InvalidOpcode
  · subst ho
    have h := countBelow_diff (n := 2 ^ 16) (p := fun h => decide (errorOf16 isa h = some .InvalidOpcode))
      (q := fun h => decide (h % 4 = 3)) (.inr fun h hh h3 => by
        refine decide_eq_true ?_
        rw [errorOf16, C21_low_bits_16 _ isa (by
          rw [BitVec.toNat_ofNat, Nat.mod_eq_of_lt hh]; exact of_decide_eq_true h3)])
    rw [(C96_errors ..).2, low_count16] at h
    refine Eq.trans (countBelow_congr fun x _ => ?_) (h.trans (by cases isa <;> rfl))
    rw [stop16]
    cases errorOf16 isa x <;> simp [Bool.and_comm]
  · have : stops16 isa e = errors16 isa e := by
      cases isa <;> cases e <;> first | rfl | contradiction
    rw [this, ← (C96_errors isa e).2]
    refine countBelow_congr fun x hx => ?_
    rw [stop16, Bool.eq_iff_iff]
    by_cases h3 : x % 4 = 3
    · rw [errorOf16, C21_low_bits_16 _ isa (by rw [BitVec.toNat_ofNat, Nat.mod_eq_of_lt hx]; exact h3)]
      simp [h3, Ne.symm ho]
    · cases errorOf16 isa x <;> simp [h3]

theorem stop32_count (isa : Isa) (e : DecodingError) :
    countBelow (2 ^ 32) (stop32 isa fun x => decide (x = e)) = stops32 isa e := by
  by_cases ho : e = .InvalidOpcode
  · subst ho
    have h := countBelow_diff (n := 2 ^ 32) (p := fun h => decide (errorOf32 isa h = some .InvalidOpcode))
      (q := fun h => decide (h % 4 ≠ 3)) (.inr fun h hh h3 => by
        refine decide_eq_true ?_
        rw [errorOf32, C21_low_bits_32 _ isa (by
          rw [BitVec.toNat_ofNat, Nat.mod_eq_of_lt hh]; exact of_decide_eq_true h3)])
    rw [(C96_errors ..).1, low_count32] at h
    refine Eq.trans (countBelow_congr fun x _ => ?_) (h.trans (by cases isa <;> rfl))
    rw [stop32]
    cases errorOf32 isa x <;> simp [Bool.and_comm]
  · have : stops32 isa e = errors32 isa e := by
      cases e <;> first | rfl | contradiction
    rw [this, ← (C96_errors isa e).1]
    refine countBelow_congr fun x hx => ?_
    rw [stop32, Bool.eq_iff_iff]
    by_cases h3 : x % 4 = 3
    · cases errorOf32 isa x <;> simp [h3]
    · rw [errorOf32, C21_low_bits_32 _ isa (by rw [BitVec.toNat_ofNat, Nat.mod_eq_of_lt hx]; exact h3)]
      simp [h3, Ne.symm ho]

/-- The number of halfwords accepted. -/
def taken16 : Isa → Nat
  | .Rv32 => 30463
  | .Rv64 => 38783

/-- The number of words accepted. -/
def taken32 : Isa → Nat
  | .Rv32 => 274666531
  | .Rv64 => 297604131

theorem accepts_count (isa : Isa) : countBelow (2 ^ 16) (fun h => (opcodeOf16 isa h).isSome) = taken16 isa ∧
    countBelow (2 ^ 32) (fun w => (opcodeOf32 isa w).isSome) = taken32 isa := by
  obtain ⟨h1, h2, h3, h4⟩ := C86_accepted
  cases isa
  · exact ⟨h3, h1⟩
  · exact ⟨h4, h2⟩

/-- C101.  For every error and every length, how many memories of that many halfwords are rejected with that error. -/
theorem C101_errors (isa : Isa) (e : DecodingError) (n : Nat) : ∃ L : List (List Nat), L.Nodup ∧
    (∀ hs, hs ∈ L ↔ hs.length = n ∧ (∀ h ∈ hs, h < 2 ^ 16) ∧ sweepAt isa hs = .err e) ∧
    L.length = endings (taken16 isa) (taken32 isa) (stops16 isa e) (stops32 isa e) (stops16 isa e) n := by
  have hE : Ending (fun r => r = .err e) (fun x => decide (x = e)) false :=
    ⟨by simp, by simp, by simp, by simp⟩
  obtain ⟨L, h1, h2, h3⟩ := endings_list hE isa n
  refine ⟨L, h1, fun hs => by rw [h2, isMemory, and_assoc], ?_⟩
  simpa only [Bool.false_and, Bool.or_false, (accepts_count isa).1, (accepts_count isa).2, stop16_count,
    stop32_count] using h3

/-- C101.  For every length, how many memories of that many halfwords are read up to the first half of a word, which
comes last. -/
theorem C101_cut (isa : Isa) (n : Nat) : ∃ L : List (List Nat), L.Nodup ∧
    (∀ hs, hs ∈ L ↔ hs.length = n ∧ (∀ h ∈ hs, h < 2 ^ 16) ∧ ∃ p t, sweepAt isa hs = .ok (p, t) ∧ t ≠ []) ∧
    L.length = endings (taken16 isa) (taken32 isa) 0 0 16384 n := by
  have hE : Ending (fun r => ∃ p t, r = .ok (p, t) ∧ t ≠ []) (fun _ => false) true :=
    ⟨by simp, fun h => ⟨fun _ => rfl, fun _ => ⟨_, _, rfl, by simp⟩⟩, by simp, fun i p t =>
      ⟨fun ⟨_, _, h, ht⟩ => ⟨p, t, rfl, by cases h; exact ht⟩, fun ⟨_, _, h, ht⟩ => ⟨_, t, rfl, by cases h; exact ht⟩⟩⟩
  obtain ⟨L, h1, h2, h3⟩ := endings_list hE isa n
  refine ⟨L, h1, fun hs => by rw [h2, isMemory, and_assoc], ?_⟩
  have z16 : stop16 isa (fun _ => false) = fun _ => false := by
    funext x; rw [stop16]; cases errorOf16 isa x <;> simp
  have z32 : stop32 isa (fun _ => false) = fun _ => false := by
    funext x; rw [stop32]; cases errorOf32 isa x <;> simp
  rw [z16, z32] at h3
  simpa only [Bool.true_and, Bool.false_or, (accepts_count isa).1, (accepts_count isa).2, low_count16,
    show ∀ k, countBelow k (fun _ => false) = 0 from fun k => countBelow_zero fun _ _ => rfl] using h3

/-- C101.  The memories that are programs, that are cut, and that are rejected with each error are all memories: the
numbers add up to 65536^n. -/
theorem C101_total (isa : Isa) (n : Nat) :
    sequences (taken16 isa) (taken32 isa) n + endings (taken16 isa) (taken32 isa) 0 0 16384 n +
      (allErrors.map fun e =>
        endings (taken16 isa) (taken32 isa) (stops16 isa e) (stops32 isa e) (stops16 isa e) n).sum = 65536 ^ n := by
  induction n using sequences.induct with
  | case1 => cases isa <;> decide
  | case2 => cases isa <;> decide
  | case3 n ih1 ih2 =>
    rw [Nat.pow_succ] at ih1
    simp only [allErrors, List.map_cons, List.map_nil, List.sum_cons, List.sum_nil] at ih1 ih2 ⊢
    simp only [sequences, endings, Nat.pow_succ]
    cases isa <;> simp only [taken16, taken32, stops16, stops32, errors32] at ih1 ih2 ⊢ <;> omega

/-! ## Examples -/

example : sweepAt .Rv64 [1, 0, 7] = .err .IllegalInstruction ∧ (∃ p, sweepAt .Rv64 [1, 0x0093] = .ok (p, [0x0093])) ∧
    sweepAt .Rv32 [1, 0x003b, 0x00b5] = .err .OnlyRv64Inst := ⟨rfl, ⟨_, rfl⟩, rfl⟩
example : endings (taken16 .Rv64) (taken32 .Rv64) (stops16 .Rv64 .IllegalInstruction)
    (stops32 .Rv64 .IllegalInstruction) (stops16 .Rv64 .IllegalInstruction) 2 = 38783 + 65536 := by decide

end Raki
