import Verif.Spec.Count
/-!
# Counting words

A set of words that is given field by field has as many members as the product of what its fields may hold.
-/

namespace Raki

open Spec

/-- How many numbers below `n` satisfy `p`. -/
def countBelow (n : Nat) (p : Nat → Bool) : Nat := (List.range n).countP p

theorem countBelow_congr {n : Nat} {p q : Nat → Bool} (h : ∀ x, x < n → p x = q x) :
    countBelow n p = countBelow n q := by
  refine List.countP_congr fun x hx => ?_
  rw [h x (List.mem_range.1 hx)]

theorem countBelow_add (a b : Nat) (p : Nat → Bool) :
    countBelow (a + b) p = countBelow a p + countBelow b fun x => p (a + x) := by
  simp only [countBelow, List.range_add, List.countP_append, List.countP_map, Function.comp_def]

theorem countBelow_mul (a b : Nat) (p q : Nat → Bool) :
    countBelow (a * b) (fun n => p (n % a) && q (n / a)) = countBelow a p * countBelow b q := by
  induction b with
  | zero => simp [countBelow]
  | succ b ih =>
    rw [Nat.mul_succ, countBelow_add, ih]
    have h1 : countBelow (b + 1) q = countBelow b q + if q b then 1 else 0 := by
      rw [countBelow_add]; simp [countBelow]
    have h2 : (countBelow a fun x => p ((a * b + x) % a) && q ((a * b + x) / a)) =
        countBelow a p * if q b then 1 else 0 := by
      have h : ∀ x, x < a → (p ((a * b + x) % a) && q ((a * b + x) / a)) = (p x && q b) := by
        intro x hx
        have ha : 0 < a := by omega
        rw [Nat.mul_add_mod, Nat.mod_eq_of_lt hx, Nat.mul_add_div ha, Nat.div_eq_of_lt hx, Nat.add_zero]
      rw [countBelow_congr h]
      cases q b <;> simp [countBelow]
    rw [h1, h2, Nat.mul_add]

theorem countBelow_true (n : Nat) : countBelow n (fun _ => true) = n := by simp [countBelow]

theorem countBelow_not (n : Nat) (p : Nat → Bool) : countBelow n p + countBelow n (fun x => !p x) = n := by
  have := List.length_eq_countP_add_countP p (l := List.range n)
  rw [List.length_range] at this
  simpa [countBelow] using this.symm

theorem countBelow_or {n : Nat} {p q : Nat → Bool} (h : ∀ x, p x = true → q x = true → False) :
    countBelow n (fun x => p x || q x) = countBelow n p + countBelow n q := by
  induction n with
  | zero => rfl
  | succ n ih =>
    simp only [countBelow, List.range_succ, List.countP_append, List.countP_cons, List.countP_nil] at ih ⊢
    rw [ih]
    have := h n
    cases hp : p n <;> cases hq : q n <;> simp_all <;> omega

theorem countBelow_succ (n : Nat) (p : Nat → Bool) : countBelow (n + 1) p = countBelow n p + if p n then 1 else 0 := by
  simp only [countBelow, List.range_succ, List.countP_append, List.countP_cons, List.countP_nil, Nat.zero_add]

theorem countBelow_zero {n : Nat} {p : Nat → Bool} (h : ∀ x, x < n → p x = false) : countBelow n p = 0 :=
  List.countP_eq_zero.2 fun x hx => by simp [h x (List.mem_range.1 hx)]

theorem countBelow_eq {n c : Nat} (h : c < n) : countBelow n (fun x => x == c) = 1 := by
  induction n with
  | zero => omega
  | succ n ih =>
    rw [countBelow_succ]
    by_cases hc : c = n
    · subst hc
      rw [countBelow_zero fun x hx => by simp; omega]
      simp
    · rw [ih (by omega)]
      have : (n == c) = false := by simp; omega
      simp [this]

theorem sum_zero {α : Type} {l : List α} {f : α → Nat} (h : ∀ a ∈ l, f a = 0) : (l.map f).sum = 0 := by
  induction l with
  | nil => rfl
  | cons a l ih =>
    rw [List.map_cons, List.sum_cons, h a List.mem_cons_self, ih fun b hb => h b (List.mem_cons_of_mem _ hb)]

theorem countBelow_isIn (n : Nat) (cs : List Nat) (hn : cs.Nodup) (hb : ∀ c ∈ cs, c < n) :
    countBelow n (fun x => cs.contains x) = cs.length := by
  induction cs with
  | nil => simp [countBelow]
  | cons c cs ih =>
    rw [List.nodup_cons] at hn
    have e : (fun x => (c :: cs).contains x) = fun x => (x == c) || cs.contains x := by
      funext x; rw [List.contains_cons]
    rw [e, countBelow_or, countBelow_eq (hb c List.mem_cons_self), ih hn.2 fun d hd => hb d (List.mem_cons_of_mem _ hd),
      List.length_cons, Nat.add_comm]
    intro x h1 h2
    rw [beq_iff_eq] at h1
    subst h1
    exact hn.1 (by simpa using h2)

theorem slot_count {w : Nat} {s : Slot} (h : s.ok w = true) : countBelow (2 ^ w) s.has = s.size w := by
  cases s with
  | any => exact countBelow_true _
  | isIn cs =>
    simp only [Slot.ok, Bool.and_eq_true, decide_eq_true_eq, List.all_eq_true] at h
    exact countBelow_isIn _ _ h.1 h.2
  | notIn cs =>
    simp only [Slot.ok, Bool.and_eq_true, decide_eq_true_eq, List.all_eq_true] at h
    have h1 := countBelow_isIn _ _ h.1 h.2
    have h2 := countBelow_not (2 ^ w) fun x => cs.contains x
    show countBelow (2 ^ w) (fun x => !cs.contains x) = 2 ^ w - cs.length
    omega

theorem cube_count (c : Cube) (h : c.ok = true) : countBelow (2 ^ c.width) c.has = c.size := by
  induction c with
  | nil => rfl
  | cons a c ih =>
    obtain ⟨w, s⟩ := a
    simp only [Cube.ok, Bool.and_eq_true] at h
    show countBelow (2 ^ (w + Cube.width c)) (fun n => s.has (n % 2 ^ w) && Cube.has c (n / 2 ^ w)) =
      s.size w * Cube.size c
    rw [Nat.pow_add, countBelow_mul, slot_count h.1, ih h.2]

theorem slot_apart {s t : Slot} (h : s.apart t = true) {x : Nat} (hs : s.has x = true) (ht : t.has x = true) :
    False := by
  have key (cs : List Nat) (u : Slot) (h : (cs.all fun x => !u.has x) = true) (hc : cs.contains x = true)
      (hu : u.has x = true) : False := by
    have := List.all_eq_true.1 h x (by simpa using hc)
    rw [hu] at this
    cases this
  cases s with
  | isIn cs => exact key cs t h hs ht
  | any | notIn =>
    cases t with
    | isIn cs => exact key cs _ h ht hs
    | any => cases h
    | notIn => cases h

theorem cube_apart {c d : Cube} (h : c.apart d = true) {n : Nat} (hc : c.has n = true) (hd : d.has n = true) :
    False := by
  induction c generalizing d n with
  | nil => cases h
  | cons a c ih =>
    cases d with
    | nil => cases h
    | cons b d =>
      obtain ⟨v, s⟩ := a
      obtain ⟨w, t⟩ := b
      simp only [Cube.apart, Cube.has, Bool.and_eq_true, Bool.or_eq_true, decide_eq_true_eq] at h hc hd
      obtain ⟨rfl, h⟩ := h
      rcases h with h | h
      · exact slot_apart h hc.1 hd.1
      · exact ih h hc.2 hd.2

theorem region_count {k : Nat} (r : Region) (h : r.ok k = true) : countBelow (2 ^ k) r.has = r.size := by
  induction r with
  | nil => simp [countBelow, Region.has, Region.size]
  | cons c r ih =>
    simp only [Region.ok, Bool.and_eq_true, decide_eq_true_eq] at h
    obtain ⟨⟨⟨hc, rfl⟩, ha⟩, hr⟩ := h
    show countBelow _ (fun n => c.has n || Region.has r n) = c.size + Region.size r
    rw [countBelow_or, cube_count c hc, ih hr]
    intro n h1 h2
    obtain ⟨d, hd, h2⟩ := List.any_eq_true.1 h2
    exact cube_apart (List.all_eq_true.1 ha d hd) h1 h2

/-- Count by the value of a function. -/
theorem countBelow_sum {α : Type} [DecidableEq α] (n : Nat) (f : Nat → Option α) (l : List α) (hl : l.Nodup)
    (h : ∀ x a, f x = some a → a ∈ l) :
    countBelow n (fun x => (f x).isSome) = (l.map fun a => countBelow n fun x => decide (f x = some a)).sum := by
  have key : ∀ (x : Nat), (if (f x).isSome then 1 else 0) = (l.map fun a => if f x = some a then 1 else 0).sum := by
    intro x
    cases e : f x with
    | none => simp [sum_zero]
    | some a =>
      have ha := h x a e
      clear h e
      induction l with
      | nil => cases ha
      | cons b l ih =>
        rw [List.nodup_cons] at hl
        rw [List.map_cons, List.sum_cons]
        by_cases hb : a = b
        · subst hb
          have : (l.map fun c => if some a = some c then 1 else 0).sum = 0 := by
            refine sum_zero fun c hc => ?_
            have : a ≠ c := fun e => hl.1 (e ▸ hc)
            simp [this]
          rw [this]
          simp
        · rw [ih hl.2 (by simpa [hb] using ha)]
          simp [hb]
  induction n with
  | zero =>
    exact (sum_zero fun _ _ => rfl).symm
  | succ n ih =>
    have step := countBelow_succ n
    rw [step, ih, key n]
    simp only [step, decide_eq_true_eq]
    clear ih key h hl
    induction l with
    | nil => rfl
    | cons b l ih => simp only [List.map_cons, List.sum_cons] at ih ⊢; omega

end Raki
