import Verif.Props.CountCopies
import Verif.Props.CountFailures
/-!
# How many memories each program has
-/

namespace Raki

open Spec

/-- The number of words or halfwords of an instruction. -/
def copiesOf (i : Instruction) : Nat := if i.isCompressed then copies16 i.opc else copies32 i.opc

/-- The product of the numbers of words of the instructions of a program. -/
def programCopies : List Instruction → Nat
  | [] => 1
  | i :: q => copiesOf i * programCopies q

theorem sweepAt_nil {isa : Isa} {hs : List Nat} (h : sweepAt isa hs = .ok ([], [])) (hb : ∀ h ∈ hs, h < 2 ^ 16) :
    hs = [] := by
  refine Classical.byContradiction fun hn => ?_
  rcases (sweepAt_first isa hs hb hn []).1 h with ⟨_, _, _, _, -, -, -, e⟩ | ⟨_, _, _, _, -, -, -, -, e⟩ <;> cases e

/-- C103.  How many memories are read as a program, for every program that some memory is read as: the product of the
numbers of words of its instructions. -/
theorem C103_memories (isa : Isa) (hs : List Nat) (p : List Instruction) (hb : ∀ h ∈ hs, h < 2 ^ 16)
    (hp : sweepAt isa hs = .ok (p, [])) : ∃ L : List (List Nat), L.Nodup ∧
      (∀ ks, ks ∈ L ↔ (∀ h ∈ ks, h < 2 ^ 16) ∧ sweepAt isa ks = .ok (p, [])) ∧ L.length = programCopies p := by
  induction p generalizing hs with
  | nil =>
    refine ⟨[[]], by simp, fun ks => ?_, rfl⟩
    rw [List.mem_singleton]
    constructor
    · rintro rfl
      exact ⟨by simp, rfl⟩
    · intro h
      exact sweepAt_nil h.2 h.1
  | cons i q ih =>
    have hn {ks : List Nat} (h : sweepAt isa ks = .ok (i :: q, [])) : ks ≠ [] := by
      rintro rfl
      cases h
    rcases (sweepAt_first isa hs hb (hn hp) _).1 hp with
      ⟨h, rest, j, q', rfl, hj, hq, e⟩ | ⟨w, rest, j, q', hw, rfl, hj, hq, e⟩
    · cases e
      obtain ⟨X, x1, x2, x3⟩ := ih rest (fun x hx => hb x (List.mem_cons_of_mem _ hx)) hq
      obtain ⟨L, l1, l2, l3⟩ := half_list (fun n => decide (U16.decode (BitVec.ofNat 16 n) isa = .ok i)) x1 x2
      have hc := (C27_metadata16 _ _ _ hj).2.1
      refine ⟨L, l1, fun ks => ?_, by rw [l3, x3, C102_halfwords _ _ _ hj, programCopies, copiesOf, if_pos hc]⟩
      rw [l2]
      constructor
      · rintro ⟨k, x, hk, hd, ⟨hx, hq⟩, rfl⟩
        have hb : ∀ h ∈ k :: x, h < 2 ^ 16 := List.forall_mem_cons.2 ⟨hk, hx⟩
        exact ⟨hb, (sweepAt_first isa _ hb (by simp) _).2 (.inl ⟨k, x, i, q, rfl, of_decide_eq_true hd, hq, rfl⟩)⟩
      · rintro ⟨hb, hk⟩
        rcases (sweepAt_first isa ks hb (hn hk) _).1 hk with
          ⟨h, rest, j, q', rfl, hj', hq, e⟩ | ⟨w, rest, j, q', hw, rfl, hj', hq, e⟩
        · cases e
          exact ⟨h, rest, hb h List.mem_cons_self, decide_eq_true hj',
            ⟨fun x hx => hb x (List.mem_cons_of_mem _ hx), hq⟩, rfl⟩
        · cases e
          rw [(C27_metadata32 _ _ _ hj').2.1] at hc
          cases hc
    · cases e
      obtain ⟨X, x1, x2, x3⟩ := ih rest (fun x hx => hb x (by simp [hx])) hq
      obtain ⟨L, l1, l2, l3⟩ := word_list (fun n => decide (U32.decode (BitVec.ofNat 32 n) isa = .ok i)) x1 x2
      have hc := (C27_metadata32 _ _ _ hj).2.1
      refine ⟨L, l1, fun ks => ?_, by rw [l3, x3, C102_words _ _ _ hj, programCopies, copiesOf, if_neg (by simp [hc])]⟩
      rw [l2]
      constructor
      · rintro ⟨k, x, hk, hd, ⟨hx, hq⟩, rfl⟩
        have hb : ∀ h ∈ k % 2 ^ 16 :: k / 2 ^ 16 :: x, h < 2 ^ 16 :=
          List.forall_mem_cons.2 ⟨by omega, List.forall_mem_cons.2 ⟨by omega, hx⟩⟩
        exact ⟨hb, (sweepAt_first isa _ hb (by simp) _).2 (.inr ⟨k, x, i, q, hk, rfl, of_decide_eq_true hd, hq, rfl⟩)⟩
      · rintro ⟨hb, hk⟩
        rcases (sweepAt_first isa ks hb (hn hk) _).1 hk with
          ⟨h, rest, j, q', rfl, hj', hq, e⟩ | ⟨w, rest, j, q', hw, rfl, hj', hq, e⟩
        · cases e
          rw [(C27_metadata16 _ _ _ hj').2.1] at hc
          cases hc
        · cases e
          exact ⟨w, rest, hw, decide_eq_true hj', ⟨fun x hx => hb x (by simp [hx]), hq⟩, rfl⟩

theorem one_mul_one {a b : Nat} : a * b = 1 ↔ a = 1 ∧ b = 1 := by
  constructor
  · intro h
    exact ⟨Nat.dvd_one.1 (h ▸ Nat.dvd_mul_right a b), Nat.dvd_one.1 (h ▸ Nat.dvd_mul_left b a)⟩
  · rintro ⟨rfl, rfl⟩
    rfl

/-- C103.  A program has only one memory if and only if none of its instructions is one of those with ignored bits. -/
theorem C103_only (isa : Isa) (hs : List Nat) (p : List Instruction) (hb : ∀ h ∈ hs, h < 2 ^ 16)
    (hp : sweepAt isa hs = .ok (p, [])) :
    (∀ ks : List Nat, (∀ h ∈ ks, h < 2 ^ 16) → sweepAt isa ks = .ok (p, []) → ks = hs) ↔ ∀ i ∈ p, copiesOf i = 1 := by
  obtain ⟨L, h1, h2, h3⟩ := C103_memories isa hs p hb hp
  have one : programCopies p = 1 ↔ ∀ i ∈ p, copiesOf i = 1 := by
    clear h2 h3 hp
    induction p with
    | nil => simp [programCopies]
    | cons i q ih => rw [programCopies, one_mul_one, ih, List.forall_mem_cons]
  rw [← one, ← h3]
  have hm : hs ∈ L := (h2 hs).2 ⟨hb, hp⟩
  constructor
  · intro h
    match L with
    | [] => cases hm
    | [_] => rfl
    | a :: b :: L =>
      have ha := (h2 a).1 (by simp)
      have hb := (h2 b).1 (by simp)
      rw [h a ha.1 ha.2, h b hb.1 hb.2] at h1
      simp at h1
  · intro h ks hk hd
    have hk := (h2 ks).2 ⟨hk, hd⟩
    obtain ⟨a, rfl⟩ := List.length_eq_one_iff.1 h
    rw [List.mem_singleton.1 hk, List.mem_singleton.1 hm]

/-- `c.nop` and `ecall`: 1024 memories. -/
example : ∃ p, sweepAt .Rv64 [1, 0x0073, 0] = .ok (p, []) ∧ programCopies p = 1024 := ⟨_, rfl, rfl⟩

end Raki
