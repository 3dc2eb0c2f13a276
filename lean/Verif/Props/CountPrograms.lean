import Verif.Props.CountTexts
import Verif.Props.Programs
/-!
# How many memories are programs

For every length: the memories that are read as programs without remainder, the programs read from them, and the
listings of those programs are counted.
-/

namespace Raki

open Spec

/-- The number of sequences of total width `n` of items of width one, of which there are `a`, and of width two, of
which there are `b`. -/
def sequences (a b : Nat) : Nat → Nat
  | 0 => 1
  | 1 => a
  | n + 2 => a * sequences a b (n + 1) + b * sequences a b n

/-- Every item in front of every list. -/
theorem prepend_list {α β : Type} (pre : α → List β) (X : List (List β)) (hX : X.Nodup) (A : List α) (hA : A.Nodup)
    (hu : ∀ a ∈ A, ∀ b ∈ A, ∀ x y, pre a ++ x = pre b ++ y → a = b) : ∃ L : List (List β), L.Nodup ∧
      (∀ l, l ∈ L ↔ ∃ a ∈ A, ∃ x ∈ X, l = pre a ++ x) ∧ L.length = A.length * X.length := by
  induction A with
  | nil => exact ⟨[], List.nodup_nil, by simp, by simp⟩
  | cons a A ih =>
    rw [List.nodup_cons] at hA
    obtain ⟨L, h1, h2, h3⟩ := ih hA.2 fun a ha b hb => hu a (List.mem_cons_of_mem _ ha) b (List.mem_cons_of_mem _ hb)
    refine ⟨X.map (pre a ++ ·) ++ L, List.nodup_append.2 ⟨?_, h1, ?_⟩, fun l => ?_, ?_⟩
    · exact List.pairwise_map.2 (hX.imp fun hne e => hne (List.append_cancel_left e))
    · intro l hl k hk e
      subst e
      obtain ⟨x, -, rfl⟩ := List.mem_map.1 hl
      obtain ⟨b, hb, y, -, e⟩ := (h2 _).1 hk
      exact hA.1 (hu a List.mem_cons_self b (List.mem_cons_of_mem _ hb) _ _ e ▸ hb)
    · rw [List.mem_append, h2, List.mem_map]
      constructor
      · rintro (⟨x, hx, rfl⟩ | ⟨b, hb, h⟩)
        · exact ⟨a, List.mem_cons_self, x, hx, rfl⟩
        · exact ⟨b, List.mem_cons_of_mem _ hb, h⟩
      · rintro ⟨b, hb, x, hx, rfl⟩
        rcases List.mem_cons.1 hb with rfl | hb
        · exact .inl ⟨x, hx, rfl⟩
        · exact .inr ⟨b, hb, x, hx, rfl⟩
    · rw [List.length_append, List.length_map, h3, List.length_cons, Nat.succ_mul, Nat.add_comm]

/-- Counting what is made of items of width one and two, if what comes first can be told from the whole. -/
theorem sequences_list {α β : Type} (A B : List α) (pre : α → List β) (hA : A.Nodup) (hB : B.Nodup)
    (hd : ∀ a ∈ A, a ∉ B) (hu : ∀ a b, a ∈ A ++ B → b ∈ A ++ B → ∀ x y, pre a ++ x = pre b ++ y → a = b)
    (P : Nat → List β → Prop) (h0 : ∀ l, P 0 l ↔ l = [])
    (hs : ∀ n l, P (n + 1) l ↔ (∃ a ∈ A, ∃ x, P n x ∧ l = pre a ++ x) ∨
      ∃ m, n = m + 1 ∧ ∃ b ∈ B, ∃ x, P m x ∧ l = pre b ++ x) :
    ∀ n, ∃ L : List (List β), L.Nodup ∧ (∀ l, l ∈ L ↔ P n l) ∧ L.length = sequences A.length B.length n := by
  intro n
  have uA : ∀ a ∈ A, ∀ b ∈ A, ∀ x y, pre a ++ x = pre b ++ y → a = b := fun a ha b hb =>
    hu a b (List.mem_append_left _ ha) (List.mem_append_left _ hb)
  have uB : ∀ a ∈ B, ∀ b ∈ B, ∀ x y, pre a ++ x = pre b ++ y → a = b := fun a ha b hb =>
    hu a b (List.mem_append_right _ ha) (List.mem_append_right _ hb)
  induction n using sequences.induct with
  | case1 => exact ⟨[[]], by simp, fun l => by rw [h0, List.mem_singleton], rfl⟩
  | case2 =>
    obtain ⟨L, h1, h2, h3⟩ := prepend_list pre [[]] (by simp) A hA uA
    refine ⟨L, h1, fun l => ?_, by simpa [sequences] using h3⟩
    rw [h2, hs]
    constructor
    · rintro ⟨a, ha, x, hx, rfl⟩
      exact .inl ⟨a, ha, x, (h0 x).2 (List.mem_singleton.1 hx), rfl⟩
    · rintro (⟨a, ha, x, hx, rfl⟩ | ⟨m, hm, -⟩)
      · exact ⟨a, ha, x, List.mem_singleton.2 ((h0 x).1 hx), rfl⟩
      · omega
  | case3 n ih1 ih2 =>
    obtain ⟨X, x1, x2, x3⟩ := ih1
    obtain ⟨Y, y1, y2, y3⟩ := ih2
    obtain ⟨L, h1, h2, h3⟩ := prepend_list pre X x1 A hA uA
    obtain ⟨K, k1, k2, k3⟩ := prepend_list pre Y y1 B hB uB
    refine ⟨L ++ K, List.nodup_append.2 ⟨h1, k1, ?_⟩, fun l => ?_, ?_⟩
    · intro l hl k hk e
      subst e
      obtain ⟨a, ha, x, -, rfl⟩ := (h2 _).1 hl
      obtain ⟨b, hb, y, -, e⟩ := (k2 _).1 hk
      exact hd a ha (hu a b (List.mem_append_left _ ha) (List.mem_append_right _ hb) _ _ e ▸ hb)
    · rw [List.mem_append, h2, k2, hs]
      constructor
      · rintro (⟨a, ha, x, hx, rfl⟩ | ⟨b, hb, x, hx, rfl⟩)
        · exact .inl ⟨a, ha, x, (x2 x).1 hx, rfl⟩
        · exact .inr ⟨n, rfl, b, hb, x, (y2 x).1 hx, rfl⟩
      · rintro (⟨a, ha, x, hx, rfl⟩ | ⟨m, hm, b, hb, x, hx, rfl⟩)
        · exact .inl ⟨a, ha, x, (x2 x).2 hx, rfl⟩
        · cases hm
          exact .inr ⟨b, hb, x, (y2 x).2 hx, rfl⟩
    · rw [List.length_append, h3, k3, x3, y3, sequences]

/-! ## Reading one instruction -/

theorem low16 {h : Nat} {isa : Isa} {i : Instruction} (hb : h < 2 ^ 16)
    (hd : U16.decode (BitVec.ofNat 16 h) isa = .ok i) : h % 4 ≠ 3 := by
  intro h3
  rw [C21_low_bits_16 _ isa (by rw [BitVec.toNat_ofNat, Nat.mod_eq_of_lt hb]; exact h3)] at hd
  cases hd

theorem low32 {w : Nat} {isa : Isa} {i : Instruction} (hb : w < 2 ^ 32)
    (hd : U32.decode (BitVec.ofNat 32 w) isa = .ok i) : w % 4 = 3 := by
  refine Classical.byContradiction fun h3 => ?_
  rw [C21_low_bits_32 _ isa (by rw [BitVec.toNat_ofNat, Nat.mod_eq_of_lt hb]; exact h3)] at hd
  cases hd

/-- A memory that is not empty is read as a program if an instruction comes first and a program follows. -/
theorem sweepAt_first (isa : Isa) (hs : List Nat) (hb : ∀ h ∈ hs, h < 2 ^ 16) (hn : hs ≠ []) (p : List Instruction) :
    sweepAt isa hs = .ok (p, []) ↔
      (∃ h rest i q, hs = h :: rest ∧ U16.decode (BitVec.ofNat 16 h) isa = .ok i ∧ sweepAt isa rest = .ok (q, []) ∧
        p = i :: q) ∨
      ∃ w rest i q, w < 2 ^ 32 ∧ hs = w % 2 ^ 16 :: w / 2 ^ 16 :: rest ∧ U32.decode (BitVec.ofNat 32 w) isa = .ok i ∧
        sweepAt isa rest = .ok (q, []) ∧ p = i :: q := by
  constructor
  · intro h
    match hs, hn with
    | x :: rest, _ =>
      by_cases h3 : x % 4 = 3
      · match rest with
        | [] => rw [sweepAt, if_pos h3] at h; cases h
        | l :: rest =>
          rw [sweepAt_word _ _ _ _ h3] at h
          obtain ⟨i, hi, h⟩ := bind_eq_ok h
          obtain ⟨⟨q, t⟩, hq, h⟩ := bind_eq_ok h
          cases h
          have hx := hb x (by simp)
          have hl := hb l (by simp)
          refine .inr ⟨x + l * 2 ^ 16, rest, i, q, by omega, ?_, hi, hq, rfl⟩
          rw [show (x + l * 2 ^ 16) % 2 ^ 16 = x by omega, show (x + l * 2 ^ 16) / 2 ^ 16 = l by omega]
      · rw [sweepAt_half _ _ _ h3] at h
        obtain ⟨i, hi, h⟩ := bind_eq_ok h
        obtain ⟨⟨q, t⟩, hq, h⟩ := bind_eq_ok h
        cases h
        exact .inl ⟨x, rest, i, q, rfl, hi, hq, rfl⟩
  · rintro (⟨h, rest, i, q, rfl, hi, hq, rfl⟩ | ⟨w, rest, i, q, hw, rfl, hi, hq, rfl⟩)
    · rw [sweepAt_half _ _ _ (low16 (hb h (by simp)) hi), hi, RustM.bind, hq]
      rfl
    · have h3 := low32 hw hi
      rw [sweepAt_word _ _ _ _ (by omega), show w % 2 ^ 16 + w / 2 ^ 16 * 2 ^ 16 = w by omega, hi, RustM.bind, hq]
      rfl

/-! ## Memories -/

/-- The memory of `n` halfwords is read as a program without remainder. -/
def isProgram (isa : Isa) (n : Nat) (hs : List Nat) : Prop :=
  hs.length = n ∧ (∀ h ∈ hs, h < 2 ^ 16) ∧ ∃ p, sweepAt isa hs = .ok (p, [])

theorem opcode16_some {isa : Isa} {h : Nat} :
    (opcodeOf16 isa h).isSome = true ↔ ∃ i, U16.decode (BitVec.ofNat 16 h) isa = .ok i := by
  rw [opcodeOf16]
  cases U16.decode (BitVec.ofNat 16 h) isa <;> simp

theorem opcode32_some {isa : Isa} {w : Nat} :
    (opcodeOf32 isa w).isSome = true ↔ ∃ i, U32.decode (BitVec.ofNat 32 w) isa = .ok i := by
  rw [opcodeOf32]
  cases U32.decode (BitVec.ofNat 32 w) isa <;> simp

/-- An instruction in memory: a halfword or a word. -/
def cells : Nat ⊕ Nat → List Nat
  | .inl h => [h]
  | .inr w => [w % 2 ^ 16, w / 2 ^ 16]

/-- Counting the memories made of given halfwords and words. -/
theorem cells_list (p16 p32 : Nat → Bool) (h16 : ∀ h, h < 2 ^ 16 → p16 h = true → h % 4 ≠ 3)
    (h32 : ∀ w, w < 2 ^ 32 → p32 w = true → w % 4 = 3) (P : List Nat → Prop) (h0 : P [])
    (hs : ∀ hs, (∀ h ∈ hs, h < 2 ^ 16) → hs ≠ [] → (P hs ↔ (∃ h rest, hs = h :: rest ∧ p16 h = true ∧ P rest) ∨
      ∃ w rest, w < 2 ^ 32 ∧ hs = w % 2 ^ 16 :: w / 2 ^ 16 :: rest ∧ p32 w = true ∧ P rest)) (n : Nat) :
    ∃ L : List (List Nat), L.Nodup ∧ (∀ hs, hs ∈ L ↔ hs.length = n ∧ (∀ h ∈ hs, h < 2 ^ 16) ∧ P hs) ∧
      L.length = sequences (countBelow (2 ^ 16) p16) (countBelow (2 ^ 32) p32) n := by
  obtain ⟨A, a1, a2, a3⟩ := list_of_values (2 ^ 16) p16 (fun h => some (Sum.inl h : Nat ⊕ Nat)) (fun _ _ _ => rfl)
    (fun x y a _ _ _ _ h h' => by rw [← h'] at h; simpa using h)
  obtain ⟨B, b1, b2, b3⟩ := list_of_values (2 ^ 32) p32 (fun h => some (Sum.inr h : Nat ⊕ Nat)) (fun _ _ _ => rfl)
    (fun x y a _ _ _ _ h h' => by rw [← h'] at h; simpa using h)
  rw [← a3, ← b3]
  have hA {a : Nat ⊕ Nat} : a ∈ A ↔ ∃ h, h < 2 ^ 16 ∧ p16 h = true ∧ a = .inl h := by
    rw [a2]
    constructor
    · rintro ⟨h, h1, h2, h3⟩
      exact ⟨h, h1, h2, (Option.some.inj h3).symm⟩
    · rintro ⟨h, h1, h2, rfl⟩
      exact ⟨h, h1, h2, rfl⟩
  have hB {a : Nat ⊕ Nat} : a ∈ B ↔ ∃ w, w < 2 ^ 32 ∧ p32 w = true ∧ a = .inr w := by
    rw [b2]
    constructor
    · rintro ⟨h, h1, h2, h3⟩
      exact ⟨h, h1, h2, (Option.some.inj h3).symm⟩
    · rintro ⟨h, h1, h2, rfl⟩
      exact ⟨h, h1, h2, rfl⟩
  refine sequences_list A B cells a1 b1 ?_ ?_ (fun n hs => hs.length = n ∧ (∀ h ∈ hs, h < 2 ^ 16) ∧ P hs) ?_ ?_ n
  · intro a ha hb
    obtain ⟨h, -, -, rfl⟩ := hA.1 ha
    obtain ⟨w, -, -, e⟩ := hB.1 hb
    cases e
  · intro a b ha hb x y e
    rcases List.mem_append.1 ha with ha | ha <;> rcases List.mem_append.1 hb with hb | hb
    · obtain ⟨h, -, -, rfl⟩ := hA.1 ha
      obtain ⟨k, -, -, rfl⟩ := hA.1 hb
      cases e
      rfl
    · obtain ⟨h, g1, g2, rfl⟩ := hA.1 ha
      obtain ⟨w, k1, k2, rfl⟩ := hB.1 hb
      have g3 := h16 h g1 g2
      have k3 := h32 w k1 k2
      simp only [cells, List.cons_append, List.nil_append, List.cons.injEq] at e
      omega
    · obtain ⟨h, g1, g2, rfl⟩ := hA.1 hb
      obtain ⟨w, k1, k2, rfl⟩ := hB.1 ha
      have g3 := h16 h g1 g2
      have k3 := h32 w k1 k2
      simp only [cells, List.cons_append, List.nil_append, List.cons.injEq] at e
      omega
    · obtain ⟨h, -, -, rfl⟩ := hB.1 ha
      obtain ⟨k, -, -, rfl⟩ := hB.1 hb
      simp only [cells, List.cons_append, List.nil_append, List.cons.injEq] at e
      rw [show h = k by omega]
  · intro l
    constructor
    · intro h
      exact List.length_eq_zero_iff.1 h.1
    · rintro rfl
      exact ⟨rfl, by simp, h0⟩
  · intro n l
    constructor
    · rintro ⟨h1, h2, h3⟩
      rcases (hs l h2 (by rintro rfl; cases h1)).1 h3 with ⟨h, rest, rfl, hi, hq⟩ | ⟨w, rest, hw, rfl, hi, hq⟩
      · refine .inl ⟨.inl h, hA.2 ⟨h, h2 h (by simp), hi, rfl⟩, rest, ⟨?_, ?_, hq⟩, rfl⟩
        · simpa using h1
        · exact fun x hx => h2 x (by simp [hx])
      · simp only [List.length_cons] at h1
        refine .inr ⟨rest.length, by omega, .inr w, hB.2 ⟨w, hw, hi, rfl⟩, rest, ⟨rfl, ?_, hq⟩, rfl⟩
        exact fun x hx => h2 x (by simp [hx])
    · rintro (⟨a, ha, x, ⟨h1, h2, h3⟩, rfl⟩ | ⟨m, rfl, a, ha, x, ⟨h1, h2, h3⟩, rfl⟩)
      · obtain ⟨h, hh, hi, rfl⟩ := hA.1 ha
        have hb : ∀ k ∈ cells (.inl h) ++ x, k < 2 ^ 16 := by
          intro k hk
          rcases List.mem_cons.1 hk with rfl | hk
          · exact hh
          · exact h2 k hk
        exact ⟨by simp [cells, h1], hb, (hs _ hb (by simp [cells])).2 (.inl ⟨h, x, rfl, hi, h3⟩)⟩
      · obtain ⟨w, hw, hi, rfl⟩ := hB.1 ha
        have hb : ∀ k ∈ cells (.inr w) ++ x, k < 2 ^ 16 := by
          intro k hk
          rcases List.mem_cons.1 hk with rfl | hk
          · omega
          · rcases List.mem_cons.1 hk with rfl | hk
            · omega
            · exact h2 k hk
        exact ⟨by simp [cells, h1], hb, (hs _ hb (by simp [cells])).2 (.inr ⟨w, x, hw, rfl, hi, h3⟩)⟩

theorem memories_list (isa : Isa) (n : Nat) : ∃ L : List (List Nat), L.Nodup ∧ (∀ hs, hs ∈ L ↔ isProgram isa n hs) ∧
    L.length = sequences (countBelow (2 ^ 16) fun h => (opcodeOf16 isa h).isSome)
      (countBelow (2 ^ 32) fun w => (opcodeOf32 isa w).isSome) n := by
  refine cells_list _ _ ?_ ?_ (fun hs => ∃ p, sweepAt isa hs = .ok (p, [])) ⟨[], rfl⟩ ?_ n
  · intro h hh ho
    obtain ⟨i, hi⟩ := opcode16_some.1 ho
    exact low16 hh hi
  · intro w hw ho
    obtain ⟨i, hi⟩ := opcode32_some.1 ho
    exact low32 hw hi
  · intro hs hb hn
    constructor
    · rintro ⟨p, hp⟩
      rcases (sweepAt_first isa hs hb hn p).1 hp with
        ⟨h, rest, i, q, rfl, hi, hq, -⟩ | ⟨w, rest, i, q, hw, rfl, hi, hq, -⟩
      · exact .inl ⟨h, rest, rfl, opcode16_some.2 ⟨i, hi⟩, q, hq⟩
      · exact .inr ⟨w, rest, hw, rfl, opcode32_some.2 ⟨i, hi⟩, q, hq⟩
    · rintro (⟨h, rest, rfl, hi, q, hq⟩ | ⟨w, rest, hw, rfl, hi, q, hq⟩)
      · obtain ⟨i, hi⟩ := opcode16_some.1 hi
        exact ⟨i :: q, (sweepAt_first isa _ hb hn _).2 (.inl ⟨h, rest, i, q, rfl, hi, hq, rfl⟩)⟩
      · obtain ⟨i, hi⟩ := opcode32_some.1 hi
        exact ⟨i :: q, (sweepAt_first isa _ hb hn _).2 (.inr ⟨w, rest, i, q, hw, rfl, hi, hq, rfl⟩)⟩

/-! ## Programs -/

/-- The program is read, without remainder, from some memory of `n` halfwords. -/
def isRead (isa : Isa) (n : Nat) (p : List Instruction) : Prop :=
  ∃ hs : List Nat, hs.length = n ∧ (∀ h ∈ hs, h < 2 ^ 16) ∧ sweepAt isa hs = .ok (p, [])

theorem isRead_zero (isa : Isa) (p : List Instruction) : isRead isa 0 p ↔ p = [] := by
  constructor
  · rintro ⟨hs, h1, -, h⟩
    rw [List.length_eq_zero_iff.1 h1] at h
    cases h
    rfl
  · rintro rfl
    exact ⟨[], rfl, by simp, rfl⟩

theorem isRead_step (isa : Isa) (n : Nat) (p : List Instruction) : isRead isa (n + 1) p ↔
    (∃ i q, (∃ h, U16.decode h isa = .ok i) ∧ isRead isa n q ∧ p = i :: q) ∨
    ∃ m, n = m + 1 ∧ ∃ i q, (∃ w, U32.decode w isa = .ok i) ∧ isRead isa m q ∧ p = i :: q := by
  constructor
  · rintro ⟨hs, h1, h2, h3⟩
    rcases (sweepAt_first isa hs h2 (by rintro rfl; cases h1) p).1 h3 with
      ⟨h, rest, i, q, rfl, hi, hq, rfl⟩ | ⟨w, rest, i, q, hw, rfl, hi, hq, rfl⟩
    · exact .inl ⟨i, q, ⟨_, hi⟩, ⟨rest, by simpa using h1, fun x hx => h2 x (by simp [hx]), hq⟩, rfl⟩
    · simp only [List.length_cons] at h1
      exact .inr ⟨rest.length, by omega, i, q, ⟨_, hi⟩, ⟨rest, rfl, fun x hx => h2 x (by simp [hx]), hq⟩, rfl⟩
  · rintro (⟨i, q, ⟨h, hi⟩, ⟨x, h1, h2, h3⟩, rfl⟩ | ⟨m, rfl, i, q, ⟨w, hi⟩, ⟨x, h1, h2, h3⟩, rfl⟩)
    · have hb : ∀ k ∈ h.toNat :: x, k < 2 ^ 16 := by
        intro k hk
        rcases List.mem_cons.1 hk with rfl | hk
        · exact h.isLt
        · exact h2 k hk
      refine ⟨h.toNat :: x, by simp [h1], hb, (sweepAt_first isa _ hb (by simp) _).2
        (.inl ⟨_, x, i, q, rfl, ?_, h3, rfl⟩)⟩
      rw [BitVec.ofNat_toNat, BitVec.setWidth_eq]
      exact hi
    · have hw := w.isLt
      have hb : ∀ k ∈ w.toNat % 2 ^ 16 :: w.toNat / 2 ^ 16 :: x, k < 2 ^ 16 := by
        intro k hk
        rcases List.mem_cons.1 hk with rfl | hk
        · omega
        · rcases List.mem_cons.1 hk with rfl | hk
          · omega
          · exact h2 k hk
      refine ⟨_, by simp [h1], hb, (sweepAt_first isa _ hb (by simp) _).2
        (.inr ⟨_, x, i, q, hw, rfl, ?_, h3, rfl⟩)⟩
      rw [BitVec.ofNat_toNat, BitVec.setWidth_eq]
      exact hi

theorem programs_list (isa : Isa) (A B : List Instruction) (hA : A.Nodup) (hB : B.Nodup)
    (mA : ∀ i, i ∈ A ↔ ∃ h, U16.decode h isa = .ok i) (mB : ∀ i, i ∈ B ↔ ∃ w, U32.decode w isa = .ok i) (n : Nat) :
    ∃ L : List (List Instruction), L.Nodup ∧ (∀ p, p ∈ L ↔ isRead isa n p) ∧
      L.length = sequences A.length B.length n := by
  refine sequences_list A B (fun i => [i]) hA hB ?_ ?_ (isRead isa) (isRead_zero isa) ?_ n
  · intro i ha hb
    obtain ⟨h, ha⟩ := (mA i).1 ha
    obtain ⟨w, hb⟩ := (mB i).1 hb
    have h1 := (C27_metadata16 _ _ _ ha).2.1
    rw [(C27_metadata32 _ _ _ hb).2.1] at h1
    cases h1
  · intro a b _ _ x y e
    simpa using (List.cons.inj e).1
  · intro n p
    rw [isRead_step]
    constructor
    · rintro (⟨i, q, hi, hq, rfl⟩ | ⟨m, rfl, i, q, hi, hq, rfl⟩)
      · exact .inl ⟨i, (mA i).2 hi, q, hq, rfl⟩
      · exact .inr ⟨m, rfl, i, (mB i).2 hi, q, hq, rfl⟩
    · rintro (⟨i, hi, q, hq, rfl⟩ | ⟨m, rfl, i, hi, q, hq, rfl⟩)
      · exact .inl ⟨i, q, (mA i).1 hi, hq, rfl⟩
      · exact .inr ⟨m, rfl, i, q, (mB i).1 hi, hq, rfl⟩

/-! ## Listings -/

/-- The text is the listing of a program read from some memory of `n` halfwords. -/
def isListing (isa : Isa) (n : Nat) (s : String) : Prop := ∃ p, isRead isa n p ∧ listing p = .ok s

theorem listing_cons {i : Instruction} {q : List Instruction} {s : String} :
    listing (i :: q) = .ok s ↔ ∃ t u, i.fmt = .ok t ∧ listing q = .ok u ∧ s = t ++ "\n" ++ u := by
  rw [listing]
  cases i.fmt <;> cases listing q <;> simp [RustM.bind, eq_comm]

theorem listings_list (isa : Isa) (A B : List String) (hA : A.Nodup) (hB : B.Nodup)
    (mA : ∀ s, s ∈ A ↔ ∃ h i, U16.decode h isa = .ok i ∧ i.fmt = .ok s)
    (mB : ∀ s, s ∈ B ↔ ∃ w i, U32.decode w isa = .ok i ∧ i.fmt = .ok s) (n : Nat) :
    ∃ L : List String, L.Nodup ∧ (∀ s, s ∈ L ↔ isListing isa n s) ∧ L.length = sequences A.length B.length n := by
  have line {s : String} (hs : s ∈ A ++ B) : ∀ c ∈ s.toList, c ≠ '\n' := by
    have h : ∃ i : Instruction, i.fmt = .ok s := by
      rcases List.mem_append.1 hs with hs | hs
      · obtain ⟨_, i, _, h⟩ := (mA s).1 hs
        exact ⟨i, h⟩
      · obtain ⟨_, i, _, h⟩ := (mB s).1 hs
        exact ⟨i, h⟩
    obtain ⟨i, h⟩ := h
    rintro c hc rfl
    have := (C53_one_line i s h).1 _ hc
    revert this
    decide
  have join (t u : String) : t ++ "\n" ++ u = String.ofList (t.toList ++ ['\n'] ++ u.toList) := by
    refine string_ext ?_
    rw [String.toList_ofList, String.toList_append, String.toList_append]
    rfl
  obtain ⟨L, h1, h2, h3⟩ := sequences_list A B (fun s => s.toList ++ ['\n']) hA hB
    (by
      intro s ha hb
      obtain ⟨_, i, hi, hs⟩ := (mA s).1 ha
      obtain ⟨_, j, hj, ht⟩ := (mB s).1 hb
      exact C98_apart _ _ _ _ _ _ hj hi s ht hs)
    (by
      intro a b ha hb x y e
      rw [List.append_assoc, List.append_assoc] at e
      exact string_ext (split_at '\n' _ _ _ _ (line ha) (line hb) e).1)
    (fun n l => isListing isa n (String.ofList l))
    (by
      intro l
      constructor
      · rintro ⟨p, hp, hl⟩
        rw [(isRead_zero isa p).1 hp] at hl
        injection hl with hl
        simpa using congrArg String.toList hl.symm
      · rintro rfl
        exact ⟨[], (isRead_zero isa _).2 rfl, rfl⟩)
    (by
      intro n l
      constructor
      · rintro ⟨p, hp, hl⟩
        rcases (isRead_step isa n p).1 hp with ⟨i, q, ⟨h, hi⟩, hq, rfl⟩ | ⟨m, rfl, i, q, ⟨w, hi⟩, hq, rfl⟩
        · obtain ⟨t, u, ht, hu, e⟩ := listing_cons.1 hl
          refine .inl ⟨t, (mA t).2 ⟨h, i, hi, ht⟩, u.toList, ⟨q, hq, by rw [String.ofList_toList]; exact hu⟩, ?_⟩
          rw [join] at e
          simpa using congrArg String.toList e
        · obtain ⟨t, u, ht, hu, e⟩ := listing_cons.1 hl
          refine .inr ⟨m, rfl, t, (mB t).2 ⟨w, i, hi, ht⟩, u.toList,
            ⟨q, hq, by rw [String.ofList_toList]; exact hu⟩, ?_⟩
          rw [join] at e
          simpa using congrArg String.toList e
      · rintro (⟨t, ht, x, ⟨q, hq, hu⟩, rfl⟩ | ⟨m, rfl, t, ht, x, ⟨q, hq, hu⟩, rfl⟩)
        · obtain ⟨h, i, hi, hf⟩ := (mA t).1 ht
          refine ⟨i :: q, (isRead_step isa n _).2 (.inl ⟨i, q, ⟨h, hi⟩, hq, rfl⟩), listing_cons.2 ⟨t, _, hf, hu, ?_⟩⟩
          rw [join, String.toList_ofList]
        · obtain ⟨h, i, hi, hf⟩ := (mB t).1 ht
          refine ⟨i :: q, (isRead_step isa _ _).2 (.inr ⟨m, rfl, i, q, ⟨h, hi⟩, hq, rfl⟩),
            listing_cons.2 ⟨t, _, hf, hu, ?_⟩⟩
          rw [join, String.toList_ofList]) n
  refine ⟨L.map String.ofList, ?_, fun s => ?_, by rw [List.length_map, h3]⟩
  · refine List.pairwise_map.2 (h1.imp fun hne e => hne ?_)
    simpa using congrArg String.toList e
  · rw [List.mem_map]
    constructor
    · rintro ⟨l, hl, rfl⟩
      exact (h2 l).1 hl
    · intro h
      exact ⟨s.toList, (h2 _).2 (by rwa [String.ofList_toList]), String.ofList_toList⟩

/-! ## The numbers -/

/-- C99.  For every length, how many memories of that many halfwords are read as programs without remainder. -/
theorem C99_memories (n : Nat) :
    (∃ L : List (List Nat), L.Nodup ∧ (∀ hs, hs ∈ L ↔ hs.length = n ∧ (∀ h ∈ hs, h < 2 ^ 16) ∧
      ∃ p, sweepAt .Rv32 hs = .ok (p, [])) ∧ L.length = sequences 30463 274666531 n) ∧
    ∃ L : List (List Nat), L.Nodup ∧ (∀ hs, hs ∈ L ↔ hs.length = n ∧ (∀ h ∈ hs, h < 2 ^ 16) ∧
      ∃ p, sweepAt .Rv64 hs = .ok (p, [])) ∧ L.length = sequences 38783 297604131 n := by
  obtain ⟨h1, h2, h3, h4⟩ := C86_accepted
  have a := memories_list .Rv32 n
  have b := memories_list .Rv64 n
  rw [h1, h3] at a
  rw [h2, h4] at b
  exact ⟨a, b⟩

/-- C99.  For every length, how many different programs are read from memories of that many halfwords. -/
theorem C99_programs (n : Nat) :
    (∃ L : List (List Instruction), L.Nodup ∧ (∀ p, p ∈ L ↔ ∃ hs : List Nat, hs.length = n ∧ (∀ h ∈ hs, h < 2 ^ 16) ∧
      sweepAt .Rv32 hs = .ok (p, [])) ∧ L.length = sequences 30432 220167462 n) ∧
    ∃ L : List (List Instruction), L.Nodup ∧ (∀ p, p ∈ L ↔ ∃ hs : List Nat, hs.length = n ∧ (∀ h ∈ hs, h < 2 ^ 16) ∧
      sweepAt .Rv64 hs = .ok (p, [])) ∧ L.length = sequences 38752 238783782 n := by
  obtain ⟨⟨B, b1, b2, b3⟩, ⟨B', b1', b2', b3'⟩, ⟨A, a1, a2, a3⟩, ⟨A', a1', a2', a3'⟩⟩ := C97_total
  have a := programs_list .Rv32 A B a1 b1 a2 b2 n
  have b := programs_list .Rv64 A' B' a1' b1' a2' b2' n
  rw [a3, b3] at a
  rw [a3', b3'] at b
  exact ⟨a, b⟩

/-- C99.  For every length, how many different listings are printed for memories of that many halfwords. -/
theorem C99_listings (n : Nat) :
    (∃ L : List String, L.Nodup ∧ (∀ s, s ∈ L ↔ ∃ p, (∃ hs : List Nat, hs.length = n ∧ (∀ h ∈ hs, h < 2 ^ 16) ∧
      sweepAt .Rv32 hs = .ok (p, [])) ∧ listing p = .ok s) ∧ L.length = sequences 30367 214893831 n) ∧
    ∃ L : List String, L.Nodup ∧ (∀ s, s ∈ L ↔ ∃ p, (∃ hs : List Nat, hs.length = n ∧ (∀ h ∈ hs, h < 2 ^ 16) ∧
      sweepAt .Rv64 hs = .ok (p, [])) ∧ listing p = .ok s) ∧ L.length = sequences 38687 232330503 n := by
  obtain ⟨⟨B, b1, b2, b3⟩, ⟨B', b1', b2', b3'⟩, ⟨A, a1, a2, a3⟩, ⟨A', a1', a2', a3'⟩⟩ := C98_total
  have a := listings_list .Rv32 A B a1 b1 a2 b2 n
  have b := listings_list .Rv64 A' B' a1' b1' a2' b2' n
  rw [a3, b3] at a
  rw [a3', b3'] at b
  exact ⟨a, b⟩

theorem sequences_le (a b x : Nat) (ha : a ≤ x) (h : a * x + b ≤ x * x) (n : Nat) : sequences a b n ≤ x ^ n := by
  induction n using sequences.induct with
  | case1 => exact Nat.le_refl 1
  | case2 => rw [sequences, Nat.pow_one]; exact ha
  | case3 n ih1 ih2 =>
    rw [sequences]
    calc a * sequences a b (n + 1) + b * sequences a b n
        ≤ a * x ^ (n + 1) + b * x ^ n := Nat.add_le_add (Nat.mul_le_mul_left _ ih1) (Nat.mul_le_mul_left _ ih2)
      _ = (a * x + b) * x ^ n := by rw [Nat.pow_succ, Nat.add_mul, Nat.mul_assoc, Nat.mul_comm (x ^ n) x]
      _ ≤ x * x * x ^ n := Nat.mul_le_mul_right _ h
      _ = x ^ (n + 2) := by rw [Nat.pow_succ, Nat.pow_succ, Nat.mul_comm, Nat.mul_assoc]

theorem le_sequences (a b x : Nat) (ha : a ≤ x) (h : x * x ≤ a * x + b) (n : Nat) :
    a * x ^ n ≤ x * sequences a b n := by
  induction n using sequences.induct with
  | case1 => simpa [sequences] using ha
  | case2 => rw [sequences, Nat.pow_one, Nat.mul_comm]; exact Nat.le_refl _
  | case3 n ih1 ih2 =>
    rw [sequences]
    calc a * x ^ (n + 2) = x * x * (a * x ^ n) := by
          rw [Nat.pow_succ, Nat.pow_succ]; simp only [Nat.mul_comm, Nat.mul_left_comm, Nat.mul_assoc]
      _ ≤ (a * x + b) * (a * x ^ n) := Nat.mul_le_mul_right _ h
      _ = a * (a * x ^ (n + 1)) + b * (a * x ^ n) := by
          rw [Nat.add_mul, Nat.pow_succ]; simp only [Nat.mul_comm, Nat.mul_left_comm, Nat.mul_assoc]
      _ ≤ a * (x * sequences a b (n + 1)) + b * (x * sequences a b n) :=
          Nat.add_le_add (Nat.mul_le_mul_left _ ih1) (Nat.mul_le_mul_left _ ih2)
      _ = x * (a * sequences a b (n + 1) + b * sequences a b n) := by
          rw [Nat.mul_add]; simp only [Nat.mul_left_comm]

/-- C99.  Each halfword leaves a part of the memories that lies between 37740 and 37741 in 65536 on RV32, and between
45345 and 45347 on RV64, so hardly any long memory is a program. -/
theorem C99_share (n : Nat) :
    sequences 30463 274666531 n ≤ 37741 ^ n ∧ 30463 * 37740 ^ n ≤ 37740 * sequences 30463 274666531 n ∧
    sequences 38783 297604131 n ≤ 45347 ^ n ∧ 38783 * 45345 ^ n ≤ 45345 * sequences 38783 297604131 n :=
  ⟨sequences_le _ _ _ (by decide) (by decide) n, le_sequences _ _ _ (by decide) (by decide) n,
    sequences_le _ _ _ (by decide) (by decide) n, le_sequences _ _ _ (by decide) (by decide) n⟩

/-- Of the memories of four bytes less than half are programs on RV64; one of them is two times `c.nop`, another one
`addi x1, x0, 5`. -/
example : sequences 38783 297604131 2 = 1801725220 ∧ 2 * 1801725220 < 2 ^ 32 := by decide
example : isProgram .Rv64 2 [1, 1] ∧ isProgram .Rv64 2 [0x0093, 0x0050] ∧ isListing .Rv64 2 "C.nop\nC.nop\n" :=
  ⟨⟨rfl, by decide, _, rfl⟩, ⟨rfl, by decide, _, rfl⟩, _, ⟨[1, 1], rfl, by decide, rfl⟩, rfl⟩

end Raki
