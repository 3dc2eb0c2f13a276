import Verif.Source.Signatures
import Verif.Source.TypingSound
import Verif.Source.Codes
/-!
# The crate is well typed

Every function of the crate passes the type checker with the types of `Verif.Source.Signatures`.
-/

namespace Raki.Source

/-- Does a function of the table have its types? -/
def entryOk : Id × Id × Nat × List (List T × T) → Bool
  | (o, f, k, l) => (match find crate o f, k with
    | some fn, k + 1 => l.all fun q => fnT (sigAt k) fn q.1 q.2
    | _, _ => false)

theorem sigs_ok : sigs.all entryOk = true := by kernel_rfl

theorem sigIn_mem {d : Nat} {ss : List (Id × Id × Nat × List (List T × T))} {o f : Id} {q : List T × T}
    (h : q ∈ sigIn d ss o f) : ∃ k l, (o, f, k, l) ∈ ss ∧ k ≤ d ∧ q ∈ l := by
  induction ss with
  | nil => cases h
  | cons s ss ih =>
    obtain ⟨o', f', k, l⟩ := s
    simp only [sigIn] at h
    split at h
    · rename_i hs
      rw [Bool.and_eq_true] at hs
      cases same_eq hs.1
      cases same_eq hs.2
      split at h
      · rename_i hk
        exact ⟨k, l, List.mem_cons_self, Nat.le_of_ble_eq_true hk, h⟩
      · cases h
    · obtain ⟨k, l, hm, h⟩ := ih h
      exact ⟨k, l, List.mem_cons_of_mem _ hm, h⟩

theorem sigIn_mono {d e : Nat} (hd : d ≤ e) {ss : List (Id × Id × Nat × List (List T × T))} {o f : Id} {q : List T × T}
    (h : q ∈ sigIn d ss o f) : q ∈ sigIn e ss o f := by
  induction ss with
  | nil => cases h
  | cons s ss ih =>
    obtain ⟨o', f', k, l⟩ := s
    simp only [sigIn] at h ⊢
    split
    · rename_i hs
      rw [hs] at h
      simp only at h
      split at h
      · rename_i hk
        rw [Nat.ble_eq_true_of_le (Nat.le_trans (Nat.le_of_ble_eq_true hk) hd)]
        exact h
      · cases h
    · rename_i hs
      rw [hs] at h
      exact ih h

/-- Calls of the crate's functions have their types. -/
theorem call_typed (md : Build) (d : Nat) : CallT md.ptr (sigAt d) (call crate md d) := by
  induction d with
  | zero =>
    intro o f ps r hm
    obtain ⟨k, l, hs, hk, _⟩ := sigIn_mem hm
    have := List.all_eq_true.1 sigs_ok _ hs
    cases Nat.le_zero.1 hk
    simp only [entryOk] at this
    split at this
    · rename_i h; cases h
    · cases this
  | succ d ih =>
    intro o f ps r hm args ha
    obtain ⟨k, l, hs, hk, hq⟩ := sigIn_mem hm
    have := List.all_eq_true.1 sigs_ok _ hs
    simp only [entryOk] at this
    split at this
    · rename_i fn k hf
      have hfn := List.all_eq_true.1 this _ hq
      simp only [call, hf]
      exact fnT_sound md (fun o f ps r hm => ih o f ps r (sigIn_mono (by omega) hm)) hfn ha
    · cases this

end Raki.Source
