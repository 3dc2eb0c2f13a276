import Verif.Model.Sink
/-!
# The pieces of a printed text
-/

namespace Raki

/-- The pieces that `<Instruction as Display>::fmt` writes, or the panic of an argument. -/
def Instruction.pieces (self : Instruction) : RustM (List String) :=
  let opc := self.opc.toStr
  match self.instFormat with
  | .RFormat | .MFormat => do
    let rd ← reg2str (← unwrap self.rd)
    let rs1 ← reg2str (← unwrap self.rs1)
    let rs2 ← reg2str (← unwrap self.rs2)
    .ok [opc, " ", rd, ", ", rs1, ", ", rs2]
  | .AFormat => (match self.opc with
    | .A .LR_W | .A .LR_D => do
      let rd ← reg2str (← unwrap self.rd)
      let rs1 ← reg2str (← unwrap self.rs1)
      .ok [opc, " ", rd, ", ", rs1]
    | _ => do
      let rd ← reg2str (← unwrap self.rd)
      let rs1 ← reg2str (← unwrap self.rs1)
      let rs2 ← reg2str (← unwrap self.rs2)
      .ok [opc, " ", rd, ", ", rs1, ", ", rs2])
  | .RShamtFormat => do
    let rd ← reg2str (← unwrap self.rd)
    let rs1 ← reg2str (← unwrap self.rs1)
    .ok [opc, " ", rd, ", ", rs1]
  | .ClFormat | .ALrFormat | .IFormat => do
    let rd ← reg2str (← unwrap self.rd)
    let rs1 ← reg2str (← unwrap self.rs1)
    let imm ← unwrap self.imm
    .ok ([opc, " ", rd, ", ", rs1, ", "] ++ piecesI32 imm)
  | .CsFormat | .SFormat | .BFormat => do
    let rs1 ← reg2str (← unwrap self.rs1)
    let imm ← unwrap self.imm
    let rs2 ← reg2str (← unwrap self.rs2)
    .ok ([opc, " ", rs1, ", "] ++ piecesI32 imm ++ ["(", rs2, ")"])
  | .CiwFormat => do
    let rd ← reg2str (← unwrap self.rd)
    let imm ← unwrap self.imm
    .ok [opc, " ", rd, ", sp, ", fmtI32Hex imm]
  | .CssFormat => do
    let rs2 ← reg2str (← unwrap self.rs2)
    let imm ← unwrap self.imm
    .ok ([opc, " ", rs2, ", "] ++ piecesI32 imm ++ ["(sp)"])
  | .UFormat | .JFormat => do
    let rd ← reg2str (← unwrap self.rd)
    let imm ← unwrap self.imm
    .ok ([opc, " ", rd, ", "] ++ piecesHex (fmtI32Hex imm))
  | .CjFormat => do
    let imm ← unwrap self.imm
    .ok ([opc, " "] ++ piecesI32 imm)
  | .CiFormat => do
    let rd ← reg2str (← unwrap self.rd)
    let rd' ← reg2str (← unwrap self.rd)
    let imm ← unwrap self.imm
    .ok ([opc, " ", rd, ", ", rd', ", "] ++ piecesI32 imm)
  | .CrFormat => (match self.opc with
    | .C .JR => do
      let rs1 ← reg2str (← unwrap self.rs1)
      .ok [opc, " zero, 0(", rs1, ")"]
    | .C .JALR => do
      let rs1 ← reg2str (← unwrap self.rs1)
      .ok [opc, " ra, 0(", rs1, ")"]
    | .C .MV => do
      let rd ← reg2str (← unwrap self.rd)
      let rs2 ← reg2str (← unwrap self.rs2)
      .ok [opc, " ", rd, ", ", rs2]
    | .C .ADD => do
      let rd ← reg2str (← unwrap self.rd)
      let rd' ← reg2str (← unwrap self.rd)
      let rs2 ← reg2str (← unwrap self.rs2)
      .ok [opc, " ", rd, ", ", rd', ", ", rs2]
    | _ => .panic)
  | .CaFormat => do
    let rd ← reg2str (← unwrap self.rd)
    let rd' ← reg2str (← unwrap self.rd)
    let rs2 ← reg2str (← unwrap self.rs2)
    .ok [opc, " ", rd, ", ", rd', ", ", rs2]
  | .CbFormat => do
    let rs1 ← unwrap self.rs1
    let imm ← unwrap self.imm
    .ok ([opc, " ", fmtUsize rs1, ", "] ++ piecesI32 imm)
  | .CsrFormat => do
    let rd ← reg2str (← unwrap self.rd)
    let rs2 ← unwrap self.rs2
    let rs1 ← reg2str (← unwrap self.rs1)
    .ok ([opc, " ", rd, ", "] ++ piecesHex (hexNat rs2) ++ [", ", rs1])
  | .CsrUiFormat => do
    let rd ← reg2str (← unwrap self.rd)
    let rs2 ← unwrap self.rs2
    let imm ← unwrap self.imm
    .ok ([opc, " ", rd, ", ", fmtUsize rs2, ", "] ++ piecesI32 imm)
  | .OnlyRd => do
    let rd ← reg2str (← unwrap self.rd)
    .ok [opc, " ", rd]
  | .OnlyRs1 => do
    let rs1 ← reg2str (← unwrap self.rs1)
    .ok [opc, " ", rs1]
  | .OnlyRs2 => do
    let rs2 ← reg2str (← unwrap self.rs2)
    .ok [opc, " ", rs2]
  | .NoOperand => (match self.opc with
    | .BaseI .ECALL | .BaseI .EBREAK
    | .Zifencei .FENCE
    | .C .NOP | .C .EBREAK
    | .Priv .MRET | .Priv .SRET | .Priv .WFI | .Priv .SFENCE_VMA => .ok [opc]
    | _ => .panic)

theorem join_pieces (cs : List String) : String.join cs = cs.foldr (· ++ ·) "" := by
  have : ∀ (cs : List String) (a : String), cs.foldl (· ++ ·) a = a ++ cs.foldr (· ++ ·) "" := by
    intro cs
    induction cs with
    | nil => intro a; simp
    | cons c cs ih => intro a; simp only [List.foldl_cons, List.foldr_cons, ih, String.append_assoc]
  rw [String.join, this]; simp

theorem piecesI32_text (z : Int) : (piecesI32 z).foldr (· ++ ·) "" = fmtI32 z := by
  unfold piecesI32 fmtI32
  split
  · obtain ⟨n, rfl⟩ : ∃ n : Nat, z = Int.negSucc n := ⟨z.natAbs - 1, by omega⟩
    simp; rfl
  · obtain ⟨n, rfl⟩ : ∃ n : Nat, z = Int.ofNat n := ⟨z.natAbs, by simp; omega⟩
    simp; rfl

theorem foldr_text (a b : List String) :
    (a ++ b).foldr (· ++ ·) "" = a.foldr (· ++ ·) "" ++ b.foldr (· ++ ·) "" := by
  induction a with
  | nil => simp
  | cons c a ih => simp only [List.cons_append, List.foldr_cons, ih, String.append_assoc]

theorem reg2str_cases (n : Nat) : (∃ r, reg2str n = .ok r) ∨ reg2str n = .panic := by
  unfold reg2str
  split <;> first | exact .inl ⟨_, rfl⟩ | exact .inr rfl

theorem bindF_ok {σ α β : Type} (x : FmtM σ α) (f : α → FmtM σ β) (s s' : σ) (a : α) (h : x s = .ok s' a) :
    (x >>= f) s = f a s' := by
  show FmtM.bind x f s = _
  rw [FmtM.bind, h]

theorem bindF_panic {σ α β : Type} (x : FmtM σ α) (f : α → FmtM σ β) (s s' : σ) (h : x s = .panic s') :
    (x >>= f) s = .panic s' := by
  show FmtM.bind x f s = _
  rw [FmtM.bind, h]

/-- Writing into a sink, the text and the pieces: either all panic, and the sink is not touched, or the pieces
of the text are written. -/
def Agree {σ : Type} (w : Sink σ) (s : σ) (x : FmtM σ Unit) (t : RustM String) (p : RustM (List String)) : Prop :=
  (t = .panic ∧ x s = .panic s ∧ p = .panic) ∨
    ∃ cs, t = .ok (String.join cs) ∧ x s = writePieces w cs s ∧ p = .ok cs

theorem agree_reg {σ : Type} (w : Sink σ) (s : σ) (o : Option Nat) (x : String → FmtM σ Unit)
    (t : String → RustM String) (p : String → RustM (List String)) (h : ∀ r, Agree w s (x r) (t r) (p r)) :
    Agree w s (do let a ← FmtM.unwrap o; let r ← FmtM.reg2str a; x r)
      (do let a ← unwrap o; let r ← reg2str a; t r) (do let a ← unwrap o; let r ← reg2str a; p r) := by
  cases o with
  | none => exact .inl ⟨rfl, rfl, rfl⟩
  | some n =>
    have e' : ∀ {α : Type} (f : String → RustM α),
        (do let a ← unwrap (some n); let r ← reg2str a; f r) = (reg2str n >>= fun r => f r) := fun _ => rfl
    rw [Agree, e', e']
    rcases reg2str_cases n with ⟨r, hr⟩ | hr
    · have e : (do let a ← FmtM.unwrap (some n); let r ← FmtM.reg2str a; x r : FmtM σ Unit) s = x r s := by
        refine (bindF_ok _ _ s s n rfl).trans (bindF_ok _ _ s s r ?_)
        rw [FmtM.reg2str, hr]
      rw [e, hr]; exact h r
    · rw [hr]
      refine .inl ⟨rfl, ?_, rfl⟩
      refine (bindF_ok _ _ s s n rfl).trans (bindF_panic _ _ s s ?_)
      rw [FmtM.reg2str, hr]

theorem agree_unwrap {σ α : Type} (w : Sink σ) (s : σ) (o : Option α) (x : α → FmtM σ Unit)
    (t : α → RustM String) (p : α → RustM (List String)) (h : ∀ r, Agree w s (x r) (t r) (p r)) :
    Agree w s (do let a ← FmtM.unwrap o; x a) (do let a ← unwrap o; t a) (do let a ← unwrap o; p a) := by
  cases o with
  | none => exact .inl ⟨rfl, rfl, rfl⟩
  | some n => exact h n

theorem agree_write {σ : Type} (w : Sink σ) (s : σ) (cs : List String) (t : String)
    (h : cs.foldr (· ++ ·) "" = t) : Agree w s (writePieces w cs) (.ok t) (.ok cs) :=
  .inr ⟨cs, by rw [join_pieces, h], rfl, rfl⟩

theorem fmtTo_agree {σ : Type} (w : Sink σ) (s : σ) (i : Instruction) :
    Agree w s (i.fmtTo w) i.fmt i.pieces := by
  unfold Instruction.fmtTo Instruction.fmt Instruction.pieces
  generalize i.opc.toStr = op
  rcases i with ⟨opc, rd, rs1, rs2, imm, f, c⟩
  cases f
  all_goals dsimp only
  all_goals try split
  all_goals try simp only
  all_goals try exact .inl ⟨rfl, rfl, rfl⟩
  all_goals repeat' first
    | refine agree_reg w s _ _ _ _ fun _ => ?_
    | refine agree_unwrap w s _ _ _ _ fun _ => ?_
    | refine agree_write w s _ _ ?_
  all_goals
    simp only [foldr_text, piecesI32_text, piecesHex, List.foldr_cons, List.foldr_nil, String.append_assoc,
      String.append_empty]
  all_goals rfl

end Raki
