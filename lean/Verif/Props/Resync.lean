import Verif.Props.Programs
/-!
# Reading from the wrong place (C74)

Two readings of the same memory that start at different places: from where on they agree, and when they never
do.  Memories are lists of halfwords of any length.
-/

namespace Raki

open Spec

theorem sweepAt_half_ok {isa : Isa} {h : Nat} {rest : List Nat} (h3 : h % 4 ≠ 3) {p : List Instruction}
    {t : List Nat} (hs : sweepAt isa (h :: rest) = .ok (p, t)) :
    ∃ i r, p = i :: r ∧ i.isCompressed = true ∧ sweepAt isa rest = .ok (r, t) := by
  rw [sweepAt_half isa h rest h3] at hs
  cases hd : U16.decode (BitVec.ofNat 16 h) isa with
  | err e => rw [hd] at hs; cases hs
  | panic => rw [hd] at hs; cases hs
  | ok i =>
      rw [hd] at hs
      cases hr : sweepAt isa rest with
      | err e => rw [hr] at hs; cases hs
      | panic => rw [hr] at hs; cases hs
      | ok r =>
          rw [hr] at hs; cases hs
          exact ⟨i, r.1, rfl, (C27_metadata16 _ _ _ hd).2.1, rfl⟩

theorem sweepAt_word_ok {isa : Isa} {h l : Nat} {rest : List Nat} (h3 : h % 4 = 3) {p : List Instruction}
    {t : List Nat} (hs : sweepAt isa (h :: l :: rest) = .ok (p, t)) :
    ∃ i r, p = i :: r ∧ i.isCompressed = false ∧ sweepAt isa rest = .ok (r, t) := by
  rw [sweepAt_word isa h l rest h3] at hs
  cases hd : U32.decode (BitVec.ofNat 32 (h + l * 2 ^ 16)) isa with
  | err e => rw [hd] at hs; cases hs
  | panic => rw [hd] at hs; cases hs
  | ok i =>
      rw [hd] at hs
      cases hr : sweepAt isa rest with
      | err e => rw [hr] at hs; cases hs
      | panic => rw [hr] at hs; cases hs
      | ok r =>
          rw [hr] at hs; cases hs
          exact ⟨i, r.1, rfl, (C27_metadata32 _ _ _ hd).2.1, rfl⟩

/-- The readings `p`, which starts one halfword earlier, and `q` meet: in one of them there is a compressed
instruction `c`, only 32-bit instructions were read before, and everything behind is the same. -/
def Meet (p q : List Instruction) : Prop :=
  ∃ a b c r, (∀ i ∈ a ++ b, i.isCompressed = false) ∧ c.isCompressed = true ∧
    ((a.length = b.length ∧ p = a ++ c :: r ∧ q = b ++ r) ∨
     (a.length = b.length + 1 ∧ p = a ++ r ∧ q = b ++ c :: r))

theorem apart (isa : Isa) (rest : List Nat) : ∀ (h : Nat) (p q : List Instruction) (t t' : List Nat),
    sweepAt isa (h :: rest) = .ok (p, t) → sweepAt isa rest = .ok (q, t') →
    (t = t' ∧ Meet p q) ∨
      (t.length + t'.length = 1 ∧ ∀ i ∈ p ++ q, i.isCompressed = false) := by
  induction rest with
  | nil =>
      intro h p q t t' hp hq
      cases hq
      by_cases h3 : h % 4 = 3
      · rw [sweepAt, if_pos h3] at hp; cases hp
        exact .inr ⟨rfl, by simp⟩
      · obtain ⟨i, r, rfl, hc, hr⟩ := sweepAt_half_ok h3 hp
        cases hr
        exact .inl ⟨rfl, [], [], i, [], by simp, hc, .inl ⟨rfl, rfl, rfl⟩⟩
  | cons l rest ih =>
      intro h p q t t' hp hq
      by_cases h3 : h % 4 = 3
      · obtain ⟨i, r, rfl, hc, hr⟩ := sweepAt_word_ok h3 hp
        rcases ih l q r t' t hq hr with ⟨rfl, a, b, c, s, hn, hcc, hor⟩ | ⟨ht, hn⟩
        · refine .inl ⟨rfl, i :: b, a, c, s, ?_, hcc, ?_⟩
          · intro j hj
            simp only [List.cons_append, List.mem_cons, List.mem_append] at hj hn
            rcases hj with rfl | hj | hj
            · exact hc
            · exact hn j (.inr hj)
            · exact hn j (.inl hj)
          · rcases hor with ⟨hl, rfl, rfl⟩ | ⟨hl, rfl, rfl⟩
            · exact .inr ⟨by simp [hl], rfl, rfl⟩
            · exact .inl ⟨by simp [hl], rfl, rfl⟩
        · refine .inr ⟨by omega, fun j hj => ?_⟩
          simp only [List.cons_append, List.mem_cons, List.mem_append] at hj hn
          rcases hj with rfl | hj | hj
          · exact hc
          · exact hn j (.inr hj)
          · exact hn j (.inl hj)
      · obtain ⟨i, r, rfl, hc, hr⟩ := sweepAt_half_ok h3 hp
        rw [hq] at hr; cases hr
        exact .inl ⟨rfl, [], [], i, q, by simp, hc, .inl ⟨rfl, rfl, rfl⟩⟩

/-- C74.  Two readings that start one halfword apart meet right behind the first compressed instruction in
either of them, and agree from there to the end. -/
theorem C74_meet (isa : Isa) (h : Nat) (rest : List Nat) (p q : List Instruction) (t t' : List Nat)
    (hp : sweepAt isa (h :: rest) = .ok (p, t)) (hq : sweepAt isa rest = .ok (q, t'))
    (hc : ∃ i ∈ p ++ q, i.isCompressed = true) : t = t' ∧ Meet p q := by
  rcases apart isa rest h p q t t' hp hq with h | ⟨-, hn⟩
  · exact h
  · obtain ⟨i, hi, hc⟩ := hc
    rw [hn i hi] at hc; cases hc

/-- C74.  If neither contains a compressed instruction they never meet: not even at the end, where one is left
with half an instruction and the other is not. -/
theorem C74_apart (isa : Isa) (h : Nat) (rest : List Nat) (p q : List Instruction) (t t' : List Nat)
    (hp : sweepAt isa (h :: rest) = .ok (p, t)) (hq : sweepAt isa rest = .ok (q, t'))
    (hc : ∀ i ∈ p ++ q, i.isCompressed = false) : t.length + t'.length = 1 := by
  rcases apart isa rest h p q t t' hp hq with ⟨-, a, b, c, r, -, hcc, hor⟩ | ⟨h, -⟩
  · have : c ∈ p ++ q := by
      rcases hor with ⟨-, rfl, rfl⟩ | ⟨-, rfl, rfl⟩ <;> simp
    rw [hc c this] at hcc; cases hcc
  · exact h

/-- C74.  A reading that starts further back reaches the place where another one starts, or the place behind
it; in the second case the two are one halfword apart. -/
theorem C74_reach (isa : Isa) (k : Nat) : ∀ (hs : List Nat) (p : List Instruction) (t : List Nat), k < hs.length →
    sweepAt isa hs = .ok (p, t) →
    ∃ a b, p = a ++ b ∧
      (sweepAt isa (hs.drop k) = .ok (b, t) ∨ sweepAt isa (hs.drop (k + 1)) = .ok (b, t)) := by
  induction k using Nat.strongRecOn with
  | ind k ih =>
      intro hs p t hk hp
      match k, hs with
      | 0, hs => exact ⟨[], p, rfl, .inl hp⟩
      | k + 1, [] => simp at hk
      | k + 1, [h] => simp at hk
      | k + 1, h :: l :: rest =>
          by_cases h3 : h % 4 = 3
          · obtain ⟨i, r, rfl, -, hr⟩ := sweepAt_word_ok h3 hp
            match k with
            | 0 => exact ⟨[i], r, rfl, .inr hr⟩
            | k + 1 =>
                obtain ⟨a, b, rfl, h⟩ := ih k (by omega) rest r t (by simp at hk; omega) hr
                exact ⟨i :: a, b, rfl, h⟩
          · obtain ⟨i, r, rfl, -, hr⟩ := sweepAt_half_ok h3 hp
            obtain ⟨a, b, rfl, h⟩ := ih k (by omega) (l :: rest) r t (by simp at hk ⊢; omega) hr
            exact ⟨i :: a, b, rfl, h⟩

/-- `add x0, x6, x3`, whose two halves are the same halfword. -/
def addTwice : Instruction := ⟨.BaseI .ADD, some 0, some 6, some 3, none, .RFormat, false⟩

theorem sweepAt_addTwice (isa : Isa) (n : Nat) :
    sweepAt isa (List.replicate (2 * n) 0x33) = .ok (List.replicate n addTwice, []) ∧
    sweepAt isa (List.replicate (2 * n + 1) 0x33) = .ok (List.replicate n addTwice, [0x33]) := by
  induction n with
  | zero => exact ⟨rfl, rfl⟩
  | succ n ih =>
      have hd : U32.decode (BitVec.ofNat 32 (0x33 + 0x33 * 2 ^ 16)) isa = .ok addTwice := by
        cases isa <;> rfl
      constructor
      · rw [show 2 * (n + 1) = 2 * n + 1 + 1 by omega, List.replicate_succ, List.replicate_succ,
          sweepAt_word _ _ _ _ rfl, hd, ih.1]
        rfl
      · rw [show 2 * (n + 1) + 1 = 2 * n + 1 + 1 + 1 by omega, List.replicate_succ, List.replicate_succ,
          sweepAt_word _ _ _ _ rfl, hd, ih.2]
        rfl

/-- C74.  There are memories of every length, readable from both places, in which the readings never meet. -/
theorem C74_never_meet (isa : Isa) (n : Nat) : ∃ (h : Nat) (rest : List Nat) (p q : List Instruction) (t t' : List Nat),
    rest.length = n ∧ sweepAt isa (h :: rest) = .ok (p, t) ∧ sweepAt isa rest = .ok (q, t') ∧
    ∀ i ∈ p ++ q, i.isCompressed = false := by
  have all : ∀ m k, ∀ i ∈ List.replicate m addTwice ++ List.replicate k addTwice, i.isCompressed = false := by
    intro m k i hi
    simp only [List.mem_append, List.mem_replicate] at hi
    rcases hi with ⟨-, rfl⟩ | ⟨-, rfl⟩ <;> rfl
  rcases Nat.mod_two_eq_zero_or_one n with hn | hn
  · refine ⟨0x33, List.replicate (2 * (n / 2)) 0x33, _, _, [0x33], _, by simp; omega, ?_, (sweepAt_addTwice isa _).1,
      all (n / 2) _⟩
    exact (sweepAt_addTwice isa (n / 2)).2
  · refine ⟨0x33, List.replicate (2 * (n / 2) + 1) 0x33, _, _, [], _, by simp; omega, ?_, (sweepAt_addTwice isa _).2,
      all (n / 2 + 1) _⟩
    exact (sweepAt_addTwice isa (n / 2 + 1)).1

-- read from its second halfword, this memory is a `lui`, and then the same `c.beqz`
example : ∃ p q, sweepAt .Rv64 [0x0093, 0x00b7, 0xdc6d, 0xdc6d] = .ok (p, []) ∧
    sweepAt .Rv64 [0x00b7, 0xdc6d, 0xdc6d] = .ok (q, []) ∧ Meet p q ∧ p.length = 3 ∧ q.length = 2 := by
  refine ⟨_, _, rfl, rfl, ?_, rfl, rfl⟩
  exact (C74_meet .Rv64 0x0093 [0x00b7, 0xdc6d, 0xdc6d] _ _ [] [] rfl rfl
    ⟨_, List.mem_append_left _ (List.mem_cons_of_mem _ (List.mem_cons_self ..)), rfl⟩).2

end Raki
