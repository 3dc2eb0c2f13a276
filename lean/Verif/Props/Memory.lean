import Verif.Props.Programs
/-!
# From a listing back to memory (C57)
-/

namespace Raki

open Spec

/-- Every instruction met when reading the memory is encoded as the manuals say, and shadow-stack swaps
have aq and rl clear. -/
def standardMemory (isa : Isa) : List Nat → Prop
  | [] => True
  | [h] => h % 4 = 3 ∨ ∀ i, U16.decode (BitVec.ofNat 16 h) isa = .ok i → official16 isa h i.opc
  | h :: l :: rest =>
      if h % 4 = 3 then
        (∀ i, U32.decode (BitVec.ofNat 32 (h + l * 2 ^ 16)) isa = .ok i →
          official32 isa (h + l * 2 ^ 16) i.opc ∧
            (i.opc = .Zicfiss .SSAMOSWAP_W ∨ i.opc = .Zicfiss .SSAMOSWAP_D →
              fld (h + l * 2 ^ 16) 26 25 = 0)) ∧ standardMemory isa rest
      else
        (∀ i, U16.decode (BitVec.ofNat 16 h) isa = .ok i → official16 isa h i.opc) ∧
          standardMemory isa (l :: rest)

theorem halfword_back (isa : Isa) (h : Nat) (hb : h < 2 ^ 16) (i : Instruction)
    (hd : U16.decode (BitVec.ofNat 16 h) isa = .ok i) (ho : official16 isa h i.opc) :
    halfwords i = [h] := by
  have hc : i.isCompressed = true := (C27_metadata16 _ _ _ hd).2.1
  have e := C31_decode_encode_partial _ isa i hd (by
    intro he
    rw [he] at ho
    rw [toNat_ofNat16 _ hb]
    simp [official16] at ho
    exact ho.2.2.2)
  rw [toNat_ofNat16 _ hb] at e
  simp [halfwords, hc, e]

theorem word_back (isa : Isa) (h l : Nat) (hh : h < 2 ^ 16) (hl : l < 2 ^ 16) (i : Instruction)
    (hd : U32.decode (BitVec.ofNat 32 (h + l * 2 ^ 16)) isa = .ok i)
    (ho : official32 isa (h + l * 2 ^ 16) i.opc)
    (hs : i.opc = .Zicfiss .SSAMOSWAP_W ∨ i.opc = .Zicfiss .SSAMOSWAP_D →
      fld (h + l * 2 ^ 16) 26 25 = 0) : halfwords i = [h, l] := by
  have hc : i.isCompressed = false := (C27_metadata32 _ _ _ hd).2.1
  have hn := toNat_ofNat32 (h + l * 2 ^ 16) (by omega)
  have e := C29_decode_encode_partial _ isa i hd (by rw [hn]; exact ho) (by rw [hn]; exact hs)
  rw [hn] at e
  have e1 : (h + l * 2 ^ 16) % 2 ^ 16 = h := by omega
  have e2 : (h + l * 2 ^ 16) / 2 ^ 16 = l := by omega
  simp only [halfwords, hc, e, e1, e2, Bool.false_eq_true, if_false]

/-- C57.  A standard memory is recovered from the program read from it. -/
theorem C57_memory_from_program (isa : Isa) (hs : List Nat) (hb : ∀ h ∈ hs, h < 2 ^ 16)
    (hstd : standardMemory isa hs) (p : List Instruction) (t : List Nat)
    (h : sweepAt isa hs = .ok (p, t)) : layout p ++ t = hs := by
  induction hs using sweep.induct generalizing p t with
  | case1 => cases h; rfl
  | case2 x h3 => rw [sweepAt, if_pos h3] at h; cases h; rfl
  | case3 x h3 =>
      rw [sweepAt, if_neg h3] at h
      obtain ⟨i, hd, h⟩ := bind_eq_ok h
      cases h
      rcases hstd with hstd | hstd
      · exact absurd hstd h3
      · simp [layout, halfword_back isa x (hb x (by simp)) i hd (hstd i hd)]
  | case4 x l rest h3 ih =>
      rw [sweepAt_word _ _ _ _ h3] at h
      rw [standardMemory, if_pos h3] at hstd
      obtain ⟨i, hd, h⟩ := bind_eq_ok h
      obtain ⟨⟨q, u⟩, hr, h⟩ := bind_eq_ok h
      cases h
      have e := ih (fun y hy => hb y (by simp [hy])) hstd.2 q u hr
      have e1 := word_back isa x l (hb x (by simp)) (hb l (by simp)) i hd (hstd.1 i hd).1 (hstd.1 i hd).2
      rw [← e]
      simp [layout, e1]
  | case5 x l rest h3 ih =>
      rw [sweepAt_half _ _ _ h3] at h
      rw [standardMemory, if_neg h3] at hstd
      obtain ⟨i, hd, h⟩ := bind_eq_ok h
      obtain ⟨⟨q, u⟩, hr, h⟩ := bind_eq_ok h
      cases h
      have e := ih (fun y hy => hb y (by simp at hy ⊢; exact .inr hy)) hstd.2 q u hr
      have e1 := halfword_back isa x (hb x (by simp)) i hd (hstd.1 i hd)
      rw [← e]
      simp [layout, e1]

theorem sweepAt_decoded (isa : Isa) (hs : List Nat) (p : List Instruction) (t : List Nat)
    (h : sweepAt isa hs = .ok (p, t)) : ∀ i ∈ p, Decoded i := by
  induction hs using sweep.induct generalizing p t with
  | case1 => cases h; simp
  | case2 x h3 => rw [sweepAt, if_pos h3] at h; cases h; simp
  | case3 x h3 =>
      rw [sweepAt, if_neg h3] at h
      obtain ⟨i, hd, h⟩ := bind_eq_ok h
      cases h
      intro j hj
      rw [List.mem_singleton.1 hj]
      exact .inr ⟨_, _, hd⟩
  | case4 x l rest h3 ih =>
      rw [sweepAt_word _ _ _ _ h3] at h
      obtain ⟨i, hd, h⟩ := bind_eq_ok h
      obtain ⟨⟨q, u⟩, hr, h⟩ := bind_eq_ok h
      cases h
      intro j hj
      rcases List.mem_cons.1 hj with rfl | hj
      · exact .inl ⟨_, _, hd⟩
      · exact ih q u hr j hj
  | case5 x l rest h3 ih =>
      rw [sweepAt_half _ _ _ h3] at h
      obtain ⟨i, hd, h⟩ := bind_eq_ok h
      obtain ⟨⟨q, u⟩, hr, h⟩ := bind_eq_ok h
      cases h
      intro j hj
      rcases List.mem_cons.1 hj with rfl | hj
      · exact .inr ⟨_, _, hd⟩
      · exact ih q u hr j hj

/-- C57.  Two standard memories that read without remainder and have the same listing are the same, if no
opcode with a lossy text occurs. -/
theorem C57_listing_determines_memory (isa : Isa) (hs hs' : List Nat) (hb : ∀ h ∈ hs, h < 2 ^ 16)
    (hb' : ∀ h ∈ hs', h < 2 ^ 16) (hstd : standardMemory isa hs) (hstd' : standardMemory isa hs')
    (p q : List Instruction) (h : sweepAt isa hs = .ok (p, [])) (h' : sweepAt isa hs' = .ok (q, []))
    (hl : ∀ i ∈ p, lossy i.opc = false) (s : String) (ht : listing p = .ok s) (ht' : listing q = .ok s) :
    hs = hs' := by
  have e := C54_listing_lossless p q (sweepAt_decoded _ _ _ _ h) (sweepAt_decoded _ _ _ _ h') hl s ht ht'
  rw [← C57_memory_from_program isa hs hb hstd p [] h, ← C57_memory_from_program isa hs' hb' hstd' q [] h', e]

/-- C57.  Without the condition on the encodings this is false: two memories, one of them with an `xor`
whose funct7 the manuals do not define, read as the same program. -/
theorem C57_nonstandard : sweepAt .Rv64 [0xc5b3, 0x00c5] = sweepAt .Rv64 [0xc5b3, 0x04c5] ∧
    (∃ p, sweepAt .Rv64 [0xc5b3, 0x04c5] = .ok (p, [])) := ⟨by decide, _, rfl⟩

example : standardMemory .Rv32 [0x0093, 0x0050, 0xdc6d] := by
  refine ⟨?_, ?_⟩ 
  · intro i h
    cases h
    simp [official32, existsIn, gated64, row32, fixed32, fld]
  · refine .inr fun i h => ?_
    cases h
    simp [official16, quad, fld]

end Raki
