import Verif.Props.Scope
import Verif.Props.Typed
import Verif.Props.Source
/-!
# What other crates can do

C88 lists the functions that another crate can call and C85 gives their types.  Here it is said what such calls do, for
all arguments that the types allow: every value of a public type is one that the model has, and the calls that panic are
listed.
-/

namespace Raki

open Source Spec

/-! ## All values of the types -/

theorem mem_of_assoc {α : Type} : ∀ {l : List (Id × α)} {x : Id} {a : α}, assoc l x = some a → (x, a) ∈ l
  | [], _, _, h => by cases h
  | (y, b) :: l, x, a, h => by
    unfold assoc at h
    split at h
    · rename_i e
      rw [Option.some.inj h, of_decide_eq_true e]
      exact List.mem_cons_self
    · exact List.mem_cons_of_mem _ (mem_of_assoc h)

/-- The values of an enum without payload are those of the model, if there is one for every variant. -/
theorem enum_values {α : Type} [Emb α] (of : Nat → α) {ty : Id} {vs : List (Id × Option Id)}
    (hv : variants ty = some vs) (hm : membersOf ty = none)
    (h : (List.range vs.length).map (fun k => some (emb (of k))) = vs.map fun v => match v.2 with
      | none => some (Val.variant ty v.1)
      | some _ => none)
    {p : PtrWidth} {v : Val} (ht : HasT p v (.named ty)) : ∃ o, v = emb (of o) := by
  cases ht with
  | variant hs ha =>
    rw [hv] at hs
    cases hs
    have := List.mem_map_of_mem (f := fun v : Id × Option Id => match v.2 with
      | none => some (Val.variant ty v.1)
      | some _ => none) (mem_of_assoc ha)
    rw [← h, List.mem_map] at this
    obtain ⟨k, -, e⟩ := this
    exact ⟨k, (Option.some.inj e).symm⟩
  | variantOf hs ha hx =>
    rw [hv] at hs
    cases hs
    have := List.mem_map_of_mem (f := fun v : Id × Option Id => match v.2 with
      | none => some (Val.variant ty v.1)
      | some _ => none) (mem_of_assoc ha)
    rw [← h, List.mem_map] at this
    obtain ⟨k, -, e⟩ := this
    cases e
  | struct hs => rw [hm] at hs; cases hs

section
variable {p : PtrWidth} {v : Val}

theorem values_Isa (h : HasT p v (.named .Isa)) : ∃ x : Isa, v = emb x :=
  (enum_values Isa.ofNat rfl rfl rfl h).imp' _ fun _ => id
theorem values_InstFormat (h : HasT p v (.named .InstFormat)) : ∃ x : InstFormat, v = emb x :=
  (enum_values InstFormat.ofNat rfl rfl rfl h).imp' _ fun _ => id
theorem values_BaseI (h : HasT p v (.named .BaseIOpcode)) : ∃ x : BaseIOpcode, v = emb x :=
  (enum_values BaseIOpcode.ofNat rfl rfl rfl h).imp' _ fun _ => id
theorem values_M (h : HasT p v (.named .MOpcode)) : ∃ x : MOpcode, v = emb x :=
  (enum_values MOpcode.ofNat rfl rfl rfl h).imp' _ fun _ => id
theorem values_A (h : HasT p v (.named .AOpcode)) : ∃ x : AOpcode, v = emb x :=
  (enum_values AOpcode.ofNat rfl rfl rfl h).imp' _ fun _ => id
theorem values_C (h : HasT p v (.named .COpcode)) : ∃ x : COpcode, v = emb x :=
  (enum_values COpcode.ofNat rfl rfl rfl h).imp' _ fun _ => id
theorem values_Zifencei (h : HasT p v (.named .ZifenceiOpcode)) : ∃ x : ZifenceiOpcode, v = emb x :=
  (enum_values ZifenceiOpcode.ofNat rfl rfl rfl h).imp' _ fun _ => id
theorem values_Zicboz (h : HasT p v (.named .ZicbozOpcode)) : ∃ x : ZicbozOpcode, v = emb x :=
  (enum_values ZicbozOpcode.ofNat rfl rfl rfl h).imp' _ fun _ => id
theorem values_Zicsr (h : HasT p v (.named .ZicsrOpcode)) : ∃ x : ZicsrOpcode, v = emb x :=
  (enum_values ZicsrOpcode.ofNat rfl rfl rfl h).imp' _ fun _ => id
theorem values_Zicfiss (h : HasT p v (.named .ZicfissOpcode)) : ∃ x : ZicfissOpcode, v = emb x :=
  (enum_values ZicfissOpcode.ofNat rfl rfl rfl h).imp' _ fun _ => id
theorem values_Zicntr (h : HasT p v (.named .ZicntrOpcode)) : ∃ x : ZicntrOpcode, v = emb x :=
  (enum_values ZicntrOpcode.ofNat rfl rfl rfl h).imp' _ fun _ => id
theorem values_Priv (h : HasT p v (.named .PrivOpcode)) : ∃ x : PrivOpcode, v = emb x :=
  (enum_values PrivOpcode.ofNat rfl rfl rfl h).imp' _ fun _ => id

theorem values_u16 (h : HasT p v u16T) : ∃ x : BitVec 16, v = emb x := by
  cases h with | u16 _ x => exact ⟨x, rfl⟩
theorem values_u32 (h : HasT p v u32T) : ∃ x : BitVec 32, v = emb x := by
  cases h with | u32 _ x => exact ⟨x, rfl⟩
theorem values_usize (h : HasT p v usizeT) : ∃ n : Nat, n < 2 ^ p.bits ∧ v = emb n := by
  cases h with | usize _ h => exact ⟨_, h, rfl⟩
theorem values_i32 (h : HasT p v (.num .i32 true)) : ∃ z : Int, (-2 ^ 31 ≤ z ∧ z < 2 ^ 31) ∧ v = emb z := by
  cases h with | i32 _ h1 h2 => exact ⟨_, ⟨h1, h2⟩, rfl⟩
theorem values_bool (h : HasT p v .bool) : ∃ b : Bool, v = emb b := by
  cases h with | bool b => exact ⟨b, rfl⟩

theorem values_option {α : Type} [Emb α] {t : T} {q : α → Prop} (hq : ∀ v, HasT p v t → ∃ a, q a ∧ v = emb a)
    (h : HasT p v (.option t)) : ∃ a : Option α, (∀ x, a = some x → q x) ∧ v = emb a := by
  cases h with
  | none => exact ⟨none, fun _ => nofun, rfl⟩
  | some h =>
    obtain ⟨a, ha, rfl⟩ := hq _ h
    exact ⟨some a, fun x e => Option.some.inj e ▸ ha, rfl⟩

theorem values_OpcodeKind (h : HasT p v (.named .OpcodeKind)) : ∃ x : OpcodeKind, v = emb x := by
  cases h with
  | variant hs ha =>
    cases hs
    have := mem_of_assoc ha
    simp only [List.mem_cons, Prod.mk.injEq, reduceCtorEq, and_false, List.not_mem_nil, or_self] at this
  | variantOf hs ha hx =>
    cases hs
    have := mem_of_assoc ha
    simp only [List.mem_cons, Prod.mk.injEq, Option.some.injEq, List.not_mem_nil, or_false] at this
    rcases this with h | h | h | h | h | h | h | h | h | h <;> obtain ⟨rfl, rfl⟩ := h
    · obtain ⟨x, rfl⟩ := values_BaseI hx; exact ⟨.BaseI x, rfl⟩
    · obtain ⟨x, rfl⟩ := values_M hx; exact ⟨.M x, rfl⟩
    · obtain ⟨x, rfl⟩ := values_A hx; exact ⟨.A x, rfl⟩
    · obtain ⟨x, rfl⟩ := values_C hx; exact ⟨.C x, rfl⟩
    · obtain ⟨x, rfl⟩ := values_Zifencei hx; exact ⟨.Zifencei x, rfl⟩
    · obtain ⟨x, rfl⟩ := values_Zicboz hx; exact ⟨.Zicboz x, rfl⟩
    · obtain ⟨x, rfl⟩ := values_Zicsr hx; exact ⟨.Zicsr x, rfl⟩
    · obtain ⟨x, rfl⟩ := values_Zicfiss hx; exact ⟨.Zicfiss x, rfl⟩
    · obtain ⟨x, rfl⟩ := values_Zicntr hx; exact ⟨.Zicntr x, rfl⟩
    · obtain ⟨x, rfl⟩ := values_Priv hx; exact ⟨.Priv x, rfl⟩
  | struct hs => cases hs

theorem values_Instruction (h : HasT p v (.named .Instruction)) : ∃ x : Instruction, v = emb x := by
  cases h with
  | variant hs => cases hs
  | variantOf hs => cases hs
  | struct hs hn hf =>
    rename_i fs ds
    cases hs
    match fs, hn, hf with
    | [(a, va), (b, vb), (c, vc), (d, vd), (j, ve), (f, vf), (g, vg)], hn, hf =>
      simp only [List.map_cons, List.map_nil, List.cons.injEq, and_true] at hn
      obtain ⟨rfl, rfl, rfl, rfl, rfl, rfl, rfl⟩ := hn
      simp only [List.zip_cons_cons, List.zip_nil_right, List.mem_cons, List.not_mem_nil, or_false] at hf
      obtain ⟨opc, rfl⟩ := values_OpcodeKind (hf _ _ _ _ (.inl rfl))
      obtain ⟨rd, -, rfl⟩ := values_option (fun _ => values_usize) (hf _ _ _ _ (.inr (.inl rfl)))
      obtain ⟨rs1, -, rfl⟩ := values_option (fun _ => values_usize) (hf _ _ _ _ (.inr (.inr (.inl rfl))))
      obtain ⟨rs2, -, rfl⟩ := values_option (fun _ => values_usize) (hf _ _ _ _ (.inr (.inr (.inr (.inl rfl)))))
      obtain ⟨imm, -, rfl⟩ := values_option (fun _ => values_i32) (hf _ _ _ _ (.inr (.inr (.inr (.inr (.inl rfl))))))
      obtain ⟨fmt, rfl⟩ := values_InstFormat (hf _ _ _ _ (.inr (.inr (.inr (.inr (.inr (.inl rfl)))))))
      obtain ⟨comp, rfl⟩ := values_bool (hf _ _ _ _ (.inr (.inr (.inr (.inr (.inr (.inr rfl)))))))
      exact ⟨⟨opc, rd, rs1, rs2, imm, fmt, comp⟩, rfl⟩

end

/-! ## Calls -/

/-- What the model says that a call of a public function does. -/
inductive Modelled : Id → Id → List Val → Out Val → Prop
  | decode32 (w : BitVec 32) (isa : Isa) : Modelled .u32 .decode [emb w, emb isa] (outR (U32.decode w isa))
  | decode16 (w : BitVec 16) (isa : Isa) : Modelled .u16 .decode [emb w, emb isa] (outR (U16.decode w isa))
  | opcode32 (w : BitVec 32) (isa : Isa) : Modelled .u32 .parse_opcode [emb w, emb isa] (outR (U32.parse_opcode w isa))
  | opcode16 (w : BitVec 16) (isa : Isa) : Modelled .u16 .parse_opcode [emb w, emb isa] (outR (U16.parse_opcode w isa))
  | rd32 (w : BitVec 32) (op : OpcodeKind) : Modelled .u32 .parse_rd [emb w, emb op] (outR (U32.parse_rd w op))
  | rd16 (w : BitVec 16) (op : OpcodeKind) : Modelled .u16 .parse_rd [emb w, emb op] (outR (U16.parse_rd w op))
  | rs132 (w : BitVec 32) (op : OpcodeKind) : Modelled .u32 .parse_rs1 [emb w, emb op] (outR (U32.parse_rs1 w op))
  | rs116 (w : BitVec 16) (op : OpcodeKind) : Modelled .u16 .parse_rs1 [emb w, emb op] (outR (U16.parse_rs1 w op))
  | rs232 (w : BitVec 32) (op : OpcodeKind) : Modelled .u32 .parse_rs2 [emb w, emb op] (outR (U32.parse_rs2 w op))
  | rs216 (w : BitVec 16) (op : OpcodeKind) : Modelled .u16 .parse_rs2 [emb w, emb op] (outR (U16.parse_rs2 w op))
  | imm32 (w : BitVec 32) (op : OpcodeKind) (isa : Isa) :
    Modelled .u32 .parse_imm [emb w, emb op, emb isa] (outR (U32.parse_imm w op isa))
  | imm16 (w : BitVec 16) (op : OpcodeKind) (isa : Isa) :
    Modelled .u16 .parse_imm [emb w, emb op, emb isa] (outR (U16.parse_imm w op isa))
  | tryFrom (n : Nat) : Modelled .Instruction .try_from [emb n] (outR (try_from n))
  | panics (i : Instruction) : i.fmt = .panic → Modelled .Instruction .fmt [emb i] .panic
  | prints (i : Instruction) (cs : List String) : i.fmt = .ok (String.join cs) →
    Modelled .Instruction .fmt [emb i] (.val (.wrote cs))
  | format (op : OpcodeKind) : Modelled .OpcodeKind .get_format [emb op] (.val (emb op.getFormat))
  | name (op : OpcodeKind) : Modelled .OpcodeKind .fmt [emb op] (.val (.wrote [op.toStr]))
  | nameBaseI (o : BaseIOpcode) : Modelled .BaseIOpcode .fmt [emb o] (.val (.wrote [(OpcodeKind.BaseI o).toStr]))
  | nameM (o : MOpcode) : Modelled .MOpcode .fmt [emb o] (.val (.wrote [(OpcodeKind.M o).toStr]))
  | nameA (o : AOpcode) : Modelled .AOpcode .fmt [emb o] (.val (.wrote [(OpcodeKind.A o).toStr]))
  | nameC (o : COpcode) : Modelled .COpcode .fmt [emb o] (.val (.wrote [(OpcodeKind.C o).toStr]))
  | nameZifencei (o : ZifenceiOpcode) : Modelled .ZifenceiOpcode .fmt [emb o] (.val (.wrote [(OpcodeKind.Zifencei o).toStr]))
  | nameZicboz (o : ZicbozOpcode) : Modelled .ZicbozOpcode .fmt [emb o] (.val (.wrote [(OpcodeKind.Zicboz o).toStr]))
  | nameZicsr (o : ZicsrOpcode) : Modelled .ZicsrOpcode .fmt [emb o] (.val (.wrote [(OpcodeKind.Zicsr o).toStr]))
  | nameZicfiss (o : ZicfissOpcode) : Modelled .ZicfissOpcode .fmt [emb o] (.val (.wrote [(OpcodeKind.Zicfiss o).toStr]))
  | nameZicntr (o : ZicntrOpcode) : Modelled .ZicntrOpcode .fmt [emb o] (.val (.wrote [(OpcodeKind.Zicntr o).toStr]))
  | namePriv (o : PrivOpcode) : Modelled .PrivOpcode .fmt [emb o] (.val (.wrote [(OpcodeKind.Priv o).toStr]))

/-- The calls of public functions that panic:

* `try_from` of a number that is too large for the width that its last two bits ask for;
* printing an instruction whose format asks for operands that it does not have, or for registers above 31;
* asking a 32-bit word for an operand of a 16-bit shadow-stack instruction;
* asking a 16-bit word for the destination register of a 32-bit shadow-stack instruction. -/
def Panics (o f : Id) (args : List Val) : Prop :=
  (o = .Instruction ∧ f = .try_from ∧ ∃ n : Nat, args = [emb n] ∧
    (n % 4 = 3 ∧ 2 ^ 32 ≤ n ∨ n % 4 ≠ 3 ∧ 2 ^ 16 ≤ n)) ∨
  (o = .Instruction ∧ f = .fmt ∧ ∃ i : Instruction, args = [emb i] ∧
    ¬ ∃ as ss, formatArgs i.instFormat i.opc = some as ∧ argTexts i as ss) ∨
  (o = .u32 ∧ (f = .parse_rd ∨ f = .parse_rs1 ∨ f = .parse_rs2 ∨ f = .parse_imm) ∧
    ∃ (w : BitVec 32) (op : OpcodeKind) (l : List Val), args = emb w :: emb op :: l ∧
      (op = .Zicfiss .C_SSPUSH ∨ op = .Zicfiss .C_SSPOPCHK)) ∨
  (o = .u16 ∧ f = .parse_rd ∧ ∃ (w : BitVec 16) (x : ZicfissOpcode), args = [emb w, emb (OpcodeKind.Zicfiss x)] ∧
    x ≠ .C_SSPUSH ∧ x ≠ .C_SSPOPCHK)

theorem haveT1 {p : PtrWidth} {args : List Val} {a : T} (h : HaveT p args [a]) : ∃ x, args = [x] ∧ HasT p x a := by
  match args, h with
  | [x], h => exact ⟨x, rfl, h.1⟩

theorem haveT2 {p : PtrWidth} {args : List Val} {a b : T} (h : HaveT p args [a, b]) :
    ∃ x y, args = [x, y] ∧ HasT p x a ∧ HasT p y b := by
  match args, h with
  | [x, y], h => exact ⟨x, y, rfl, h.1, h.2.1⟩

theorem haveT3 {p : PtrWidth} {args : List Val} {a b c : T} (h : HaveT p args [a, b, c]) :
    ∃ x y z, args = [x, y, z] ∧ HasT p x a ∧ HasT p y b ∧ HasT p z c := by
  match args, h with
  | [x, y, z], h => exact ⟨x, y, z, rfl, h.1, h.2.1, h.2.2.1⟩

theorem one_sig {o f : Id} {s q : List T × T} (h : q ∈ sigAt 6 o f) (e : sigAt 6 o f = [s]) : q = s := by
  rw [e] at h
  exact List.mem_singleton.1 h

theorem call_modelled {p : PtrWidth} {o f : Id} (hf : (o, f) ∈ publicFns) {ps : List T} {r : T}
    (hs : (ps, r) ∈ sigAt 6 o f) {args : List Val} (ha : HaveT p args ps) :
    ∃ x, Modelled o f args x ∧ ∀ md d, 6 ≤ d → call crate md d o f args = x := by
  simp only [publicFns, List.flatMap_cons, List.flatMap_nil, List.append_nil, List.cons_append, List.nil_append,
    List.mem_cons, List.not_mem_nil, or_false, Prod.mk.injEq] at hf
  rcases hf with hf | hf | hf | hf | hf | hf | hf | hf | hf | hf | hf | hf | hf | hf | hf | hf | hf | hf | hf | hf | hf |
    hf | hf | hf | hf | hf <;> obtain ⟨rfl, rfl⟩ := hf <;> cases one_sig hs rfl
  · obtain ⟨x, rfl, hx⟩ := haveT1 ha
    obtain ⟨n, -, rfl⟩ := values_usize hx
    exact ⟨_, .tryFrom n, fun md d h => C60_try_from md d (by omega) n⟩
  · obtain ⟨x, rfl, hx⟩ := haveT1 ha
    obtain ⟨i, rfl⟩ := values_Instruction hx
    rcases fmtTo_agree (fun s _ => (s, true)) () i with ⟨h1, -, h2⟩ | ⟨cs, h1, -, h2⟩
    · refine ⟨_, .panics i h1, fun md d h => ?_⟩
      obtain ⟨n, rfl⟩ := depth_le (show 3 ≤ d by omega)
      rw [Instruction_fmt_eq md n i, h2]; rfl
    · refine ⟨_, .prints i cs h1, fun md d h => ?_⟩
      obtain ⟨n, rfl⟩ := depth_le (show 3 ≤ d by omega)
      rw [Instruction_fmt_eq md n i, h2]; rfl
  · obtain ⟨x, rfl, hx⟩ := haveT1 ha
    obtain ⟨i, rfl⟩ := values_OpcodeKind hx
    exact ⟨_, .name i, fun md d h => C60_name md d (by omega) i⟩
  · obtain ⟨x, rfl, hx⟩ := haveT1 ha
    obtain ⟨i, rfl⟩ := values_OpcodeKind hx
    exact ⟨_, .format i, fun md d h => C60_format md d (by omega) i⟩
  · obtain ⟨x, rfl, hx⟩ := haveT1 ha
    obtain ⟨i, rfl⟩ := values_A hx
    exact ⟨_, .nameA i, fun md d h => ((C60_extensions md d (by omega)).2.2.1 i).2⟩
  · obtain ⟨x, rfl, hx⟩ := haveT1 ha
    obtain ⟨i, rfl⟩ := values_BaseI hx
    exact ⟨_, .nameBaseI i, fun md d h => ((C60_extensions md d (by omega)).1 i).2⟩
  · obtain ⟨x, rfl, hx⟩ := haveT1 ha
    obtain ⟨i, rfl⟩ := values_C hx
    exact ⟨_, .nameC i, fun md d h => ((C60_extensions md d (by omega)).2.2.2.1 i).2⟩
  · obtain ⟨x, rfl, hx⟩ := haveT1 ha
    obtain ⟨i, rfl⟩ := values_M hx
    exact ⟨_, .nameM i, fun md d h => ((C60_extensions md d (by omega)).2.1 i).2⟩
  · obtain ⟨x, rfl, hx⟩ := haveT1 ha
    obtain ⟨i, rfl⟩ := values_Priv hx
    exact ⟨_, .namePriv i, fun md d h => ((C60_extensions md d (by omega)).2.2.2.2.2.2.2.2.2 i).2⟩
  · obtain ⟨x, rfl, hx⟩ := haveT1 ha
    obtain ⟨i, rfl⟩ := values_Zicboz hx
    exact ⟨_, .nameZicboz i, fun md d h => ((C60_extensions md d (by omega)).2.2.2.2.2.1 i).2⟩
  · obtain ⟨x, rfl, hx⟩ := haveT1 ha
    obtain ⟨i, rfl⟩ := values_Zicfiss hx
    exact ⟨_, .nameZicfiss i, fun md d h => ((C60_extensions md d (by omega)).2.2.2.2.2.2.2.1 i).2⟩
  · obtain ⟨x, rfl, hx⟩ := haveT1 ha
    obtain ⟨i, rfl⟩ := values_Zicntr hx
    exact ⟨_, .nameZicntr i, fun md d h => ((C60_extensions md d (by omega)).2.2.2.2.2.2.2.2.1 i).2⟩
  · obtain ⟨x, rfl, hx⟩ := haveT1 ha
    obtain ⟨i, rfl⟩ := values_Zicsr hx
    exact ⟨_, .nameZicsr i, fun md d h => ((C60_extensions md d (by omega)).2.2.2.2.2.2.1 i).2⟩
  · obtain ⟨x, rfl, hx⟩ := haveT1 ha
    obtain ⟨i, rfl⟩ := values_Zifencei hx
    exact ⟨_, .nameZifencei i, fun md d h => ((C60_extensions md d (by omega)).2.2.2.2.1 i).2⟩
  · obtain ⟨x, y, rfl, hx, hy⟩ := haveT2 ha
    obtain ⟨w, rfl⟩ := values_u16 hx
    obtain ⟨isa, rfl⟩ := values_Isa hy
    exact ⟨_, .decode16 w isa, fun md d h => C60_decode16 md d (by omega) w isa⟩
  · obtain ⟨x, y, rfl, hx, hy⟩ := haveT2 ha
    obtain ⟨w, rfl⟩ := values_u16 hx
    obtain ⟨isa, rfl⟩ := values_Isa hy
    exact ⟨_, .opcode16 w isa, fun md d h => (C60_parsers16 md d (by omega) w (.M .MUL) isa).1⟩
  · obtain ⟨x, y, rfl, hx, hy⟩ := haveT2 ha
    obtain ⟨w, rfl⟩ := values_u16 hx
    obtain ⟨op, rfl⟩ := values_OpcodeKind hy
    exact ⟨_, .rd16 w op, fun md d h => (C60_parsers16 md d (by omega) w op .Rv32).2.1⟩
  · obtain ⟨x, y, rfl, hx, hy⟩ := haveT2 ha
    obtain ⟨w, rfl⟩ := values_u16 hx
    obtain ⟨op, rfl⟩ := values_OpcodeKind hy
    exact ⟨_, .rs116 w op, fun md d h => (C60_parsers16 md d (by omega) w op .Rv32).2.2.1⟩
  · obtain ⟨x, y, rfl, hx, hy⟩ := haveT2 ha
    obtain ⟨w, rfl⟩ := values_u16 hx
    obtain ⟨op, rfl⟩ := values_OpcodeKind hy
    exact ⟨_, .rs216 w op, fun md d h => (C60_parsers16 md d (by omega) w op .Rv32).2.2.2.1⟩
  · obtain ⟨x, y, z, rfl, hx, hy, hz⟩ := haveT3 ha
    obtain ⟨w, rfl⟩ := values_u16 hx
    obtain ⟨op, rfl⟩ := values_OpcodeKind hy
    obtain ⟨isa, rfl⟩ := values_Isa hz
    exact ⟨_, .imm16 w op isa, fun md d h => (C60_parsers16 md d (by omega) w op isa).2.2.2.2⟩
  · obtain ⟨x, y, rfl, hx, hy⟩ := haveT2 ha
    obtain ⟨w, rfl⟩ := values_u32 hx
    obtain ⟨isa, rfl⟩ := values_Isa hy
    exact ⟨_, .decode32 w isa, fun md d h => C60_decode32 md d (by omega) w isa⟩
  · obtain ⟨x, y, rfl, hx, hy⟩ := haveT2 ha
    obtain ⟨w, rfl⟩ := values_u32 hx
    obtain ⟨isa, rfl⟩ := values_Isa hy
    exact ⟨_, .opcode32 w isa, fun md d h => (C60_parsers32 md d (by omega) w (.M .MUL) isa).1⟩
  · obtain ⟨x, y, rfl, hx, hy⟩ := haveT2 ha
    obtain ⟨w, rfl⟩ := values_u32 hx
    obtain ⟨op, rfl⟩ := values_OpcodeKind hy
    exact ⟨_, .rd32 w op, fun md d h => (C60_parsers32 md d (by omega) w op .Rv32).2.1⟩
  · obtain ⟨x, y, rfl, hx, hy⟩ := haveT2 ha
    obtain ⟨w, rfl⟩ := values_u32 hx
    obtain ⟨op, rfl⟩ := values_OpcodeKind hy
    exact ⟨_, .rs132 w op, fun md d h => (C60_parsers32 md d (by omega) w op .Rv32).2.2.1⟩
  · obtain ⟨x, y, rfl, hx, hy⟩ := haveT2 ha
    obtain ⟨w, rfl⟩ := values_u32 hx
    obtain ⟨op, rfl⟩ := values_OpcodeKind hy
    exact ⟨_, .rs232 w op, fun md d h => (C60_parsers32 md d (by omega) w op .Rv32).2.2.2.1⟩
  · obtain ⟨x, y, z, rfl, hx, hy, hz⟩ := haveT3 ha
    obtain ⟨w, rfl⟩ := values_u32 hx
    obtain ⟨op, rfl⟩ := values_OpcodeKind hy
    obtain ⟨isa, rfl⟩ := values_Isa hz
    exact ⟨_, .imm32 w op isa, fun md d h => (C60_parsers32 md d (by omega) w op isa).2.2.2.2⟩

/-- **C89.** A call of a public function with any arguments of its types, in any build, does what the model says of
some arguments of the model. -/
theorem C89_modelled (md : Build) (d : Nat) (h : 6 ≤ d) {o f : Id} (hf : (o, f) ∈ publicFns) {ps : List T} {r : T}
    (hs : (ps, r) ∈ sigAt 6 o f) {args : List Val} (ha : HaveT md.ptr args ps) :
    Modelled o f args (call crate md d o f args) := by
  obtain ⟨x, hx, e⟩ := call_modelled hf hs ha
  rw [e md d h]
  exact hx

/-- **C89.** Such a call does the same in every build: neither overflow checks nor the width of pointers matter. -/
theorem C89_builds (md md' : Build) (d d' : Nat) (h : 6 ≤ d) (h' : 6 ≤ d') {o f : Id} (hf : (o, f) ∈ publicFns)
    {ps : List T} {r : T} (hs : (ps, r) ∈ sigAt 6 o f) {args : List Val} (ha : HaveT md.ptr args ps) :
    call crate md d o f args = call crate md' d' o f args := by
  obtain ⟨x, -, e⟩ := call_modelled hf hs ha
  rw [e md d h, e md' d' h']

theorem modelled_panics {o f : Id} {args : List Val} {x : Out Val} (h : Modelled o f args x) :
    x = .panic ↔ Panics o f args := by
  have hn : ∀ {a b : Nat}, (emb a : Val) = emb b → a = b := fun h => Val.usize.inj h
  have three : ∀ {g : Id} {w : BitVec 32} {op : OpcodeKind} {l : List Val},
      (g = .parse_rd ∨ g = .parse_rs1 ∨ g = .parse_rs2 ∨ g = .parse_imm) →
      (Panics .u32 g (emb w :: emb op :: l) ↔ zicfissC op) := by
    intro g w op l hg
    constructor
    · rintro (⟨h, -⟩ | ⟨h, -⟩ | ⟨-, -, w', op', l', e, hz⟩ | ⟨h, -⟩)
      · cases h
      · cases h
      · rw [List.cons.injEq, List.cons.injEq] at e
        rw [emb_inj_OpcodeKind _ _ e.2.1]
        exact hz
      · cases h
    · exact fun hz => .inr (.inr (.inl ⟨rfl, hg, w, op, l, rfl, hz⟩))
  have not16 : ∀ {g : Id} {l : List Val}, g ≠ .parse_rd → ¬ Panics .u16 g l := by
    rintro g l hg (⟨h, -⟩ | ⟨h, -⟩ | ⟨h, -⟩ | ⟨-, h, -⟩)
    · cases h
    · cases h
    · cases h
    · exact hg h
  have not32 : ∀ {g : Id} {l : List Val}, g = .decode ∨ g = .parse_opcode → ¬ Panics .u32 g l := by
    rintro g l hg (⟨h, -⟩ | ⟨h, -⟩ | ⟨-, h, -⟩ | ⟨h, -⟩)
    · cases h
    · cases h
    · rcases hg with rfl | rfl <;> simp at h
    · cases h
  have never : ∀ {y g : Id} {l : List Val}, y ≠ .Instruction → y ≠ .u32 → y ≠ .u16 → ¬ Panics y g l := by
    rintro y g l h1 h2 h3 (⟨h, -⟩ | ⟨h, -⟩ | ⟨h, -⟩ | ⟨h, -⟩)
    · exact h1 h
    · exact h1 h
    · exact h2 h
    · exact h3 h
  have operand32 : ∀ (w : BitVec 32) (op : OpcodeKind) (isa : Isa),
      (U32.parse_rd w op = .panic ↔ zicfissC op) ∧ (U32.parse_rs1 w op = .panic ↔ zicfissC op) ∧
      (U32.parse_rs2 w op = .panic ↔ zicfissC op) ∧ (U32.parse_imm w op isa = .panic ↔ zicfissC op) := by
    intro w op isa
    obtain ⟨h1, h2, h3⟩ := C26_parse32 w op isa
    by_cases hz : zicfissC op
    · obtain ⟨a, b, c, d⟩ := h2 hz
      exact ⟨iff_of_true a hz, iff_of_true b hz, iff_of_true c hz, iff_of_true d hz⟩
    · by_cases hc : ∃ o, op = .C o
      · obtain ⟨o, rfl⟩ := hc
        obtain ⟨a, b, c, d⟩ := h1 o rfl
        rw [a, b, c, d]
        simp only [reduceCtorEq, hz, iff_self, and_self]
      · obtain ⟨x, y, z, v, a, b, c, d⟩ := h3 (fun o e => hc ⟨o, e⟩) hz
        rw [a, b, c, d]
        simp only [reduceCtorEq, hz, iff_self, and_self]
  have operand16 : ∀ (w : BitVec 16) (op : OpcodeKind) (isa : Isa),
      (U16.parse_rd w op = .panic ↔ (∃ o, op = .Zicfiss o) ∧ ¬ zicfissC op) ∧ U16.parse_rs1 w op ≠ .panic ∧
      U16.parse_rs2 w op ≠ .panic ∧ U16.parse_imm w op isa ≠ .panic := by
    intro w op isa
    obtain ⟨h1, h2, h3⟩ := C26_parse16 w op isa
    by_cases hz : (∃ o, op = .C o) ∨ zicfissC op
    · obtain ⟨x, y, z, v, a, b, c, d⟩ := h1 hz
      rw [a, b, c, d]
      refine ⟨⟨nofun, ?_⟩, nofun, nofun, nofun⟩
      rintro ⟨⟨o, rfl⟩, hn⟩
      rcases hz with ⟨_, hz⟩ | hz
      · cases hz
      · exact (hn hz).elim
    · by_cases hf : ∃ o, op = .Zicfiss o
      · obtain ⟨o, rfl⟩ := hf
        obtain ⟨a, b, c, d⟩ := h2 o rfl fun h => hz (.inr h)
        rw [a, b, c, d]
        exact ⟨iff_of_true rfl ⟨⟨o, rfl⟩, fun h => hz (.inr h)⟩, nofun, nofun, nofun⟩
      · obtain ⟨a, b, c, d⟩ := h3 (fun o e => hz (.inl ⟨o, e⟩)) (fun o e => hf ⟨o, e⟩)
        rw [a, b, c, d]
        exact ⟨⟨nofun, fun h => (hf h.1).elim⟩, nofun, nofun, nofun⟩
  cases h with
  | decode32 w isa =>
    rw [outR_panic]
    exact iff_of_false (decode32_no_panic w isa) (not32 (.inl rfl))
  | decode16 w isa =>
    rw [outR_panic]
    exact iff_of_false (decode16_no_panic w isa) (not16 nofun)
  | opcode32 w isa =>
    rw [outR_panic]
    exact iff_of_false (parse_opcode32_no_panic w isa) (not32 (.inr rfl))
  | opcode16 w isa =>
    rw [outR_panic]
    refine iff_of_false (fun h => ?_) (not16 nofun)
    by_cases h0 : w.toNat = 0
    · have : w = 0 := BitVec.eq_of_toNat_eq h0
      subst this
      cases isa <;> cases h
    · exact decode16_no_panic w isa (by unfold U16.decode; rw [if_neg h0, h]; rfl)
  | rd32 w op => rw [outR_panic, three (.inl rfl)]; exact (operand32 w op .Rv32).1
  | rs132 w op => rw [outR_panic, three (.inr (.inl rfl))]; exact (operand32 w op .Rv32).2.1
  | rs232 w op => rw [outR_panic, three (.inr (.inr (.inl rfl)))]; exact (operand32 w op .Rv32).2.2.1
  | imm32 w op isa => rw [outR_panic, three (.inr (.inr (.inr rfl)))]; exact (operand32 w op isa).2.2.2
  | rs116 w op => rw [outR_panic]; exact iff_of_false (operand16 w op .Rv32).2.1 (not16 nofun)
  | rs216 w op => rw [outR_panic]; exact iff_of_false (operand16 w op .Rv32).2.2.1 (not16 nofun)
  | imm16 w op isa => rw [outR_panic]; exact iff_of_false (operand16 w op isa).2.2.2 (not16 nofun)
  | rd16 w op =>
    rw [outR_panic, (operand16 w op .Rv32).1]
    constructor
    · rintro ⟨⟨o, rfl⟩, hz⟩
      exact .inr (.inr (.inr ⟨rfl, rfl, w, o, rfl, fun h => hz (.inl (h ▸ rfl)), fun h => hz (.inr (h ▸ rfl))⟩))
    · rintro (⟨h, -⟩ | ⟨h, -⟩ | ⟨h, -⟩ | ⟨-, -, w', o, h, h1, h2⟩)
      · cases h
      · cases h
      · cases h
      · rw [List.cons.injEq, List.cons.injEq] at h
        cases emb_inj_OpcodeKind _ _ h.2.1
        refine ⟨⟨o, rfl⟩, ?_⟩
        rintro (h | h)
        · exact h1 (OpcodeKind.Zicfiss.inj h)
        · exact h2 (OpcodeKind.Zicfiss.inj h)
  | tryFrom n =>
    rw [outR_panic, C43_try_from_panics]
    constructor
    · exact fun h => .inl ⟨rfl, rfl, n, rfl, h⟩
    · rintro (⟨-, -, n', h, hn'⟩ | ⟨-, h, -⟩ | ⟨h, -⟩ | ⟨h, -⟩)
      · rw [List.cons.injEq] at h
        rw [hn h.1]
        exact hn'
      · cases h
      · cases h
      · cases h
  | panics i hi =>
    exact iff_of_true rfl (.inr (.inl ⟨rfl, rfl, i, rfl, (C48_display_any_panics i).2.1 hi⟩))
  | prints i cs hi =>
    refine ⟨nofun, ?_⟩
    rintro (⟨-, h, -⟩ | ⟨-, -, i', h, hn'⟩ | ⟨h, -⟩ | ⟨h, -⟩)
    · cases h
    · rw [List.cons.injEq] at h
      rw [← emb_inj_instruction _ _ h.1, ← (C48_display_any_panics i).2, hi] at hn'
      cases hn'
    · cases h
    · cases h
  | _ => exact iff_of_false nofun (never nofun nofun nofun)

/-- **C89.** A call of a public function panics exactly if it is one of those listed; otherwise it returns a value of the
type it should.  This is so for all arguments of the right types, in all builds. -/
theorem C89_panics (md : Build) (d : Nat) (h : 6 ≤ d) {o f : Id} (hf : (o, f) ∈ publicFns) {ps : List T} {r : T}
    (hs : (ps, r) ∈ sigAt 6 o f) {args : List Val} (ha : HaveT md.ptr args ps) :
    (call crate md d o f args = .panic ↔ Panics o f args) ∧
    (¬ Panics o f args → ∃ v, call crate md d o f args = .val v ∧ HasT md.ptr v r) := by
  have hp := modelled_panics (C89_modelled md d h hf hs ha)
  refine ⟨hp, fun hn => ?_⟩
  rcases C85_sound md d h hs ha with e | e
  · exact (hn (hp.1 e)).elim
  · exact e

/-! ## Values -/

/-- **C89.** The values of the types that occur in public signatures are those of the model; numbers in an instruction
that is put together by hand may be anything in the range of their types. -/
theorem C89_values (p : PtrWidth) (v : Val) :
    (HasT p v (.named .Isa) → ∃ x : Isa, v = emb x) ∧
    (HasT p v (.named .OpcodeKind) → ∃ x : OpcodeKind, v = emb x) ∧
    (HasT p v (.named .InstFormat) → ∃ x : InstFormat, v = emb x) ∧
    (HasT p v (.named .Instruction) → ∃ x : Instruction, v = emb x) ∧
    (HasT p v u16T → ∃ x : BitVec 16, v = emb x) ∧ (HasT p v u32T → ∃ x : BitVec 32, v = emb x) ∧
    (HasT p v usizeT → ∃ n : Nat, n < 2 ^ p.bits ∧ v = emb n) :=
  ⟨values_Isa, values_OpcodeKind, values_InstFormat, values_Instruction, values_u16, values_u32, values_usize⟩

/-! ## Examples -/

-- the word of `c.nop` asked for the destination register of `sspush` and of `c.sspush`
example : Panics .u16 .parse_rd [emb (1#16), emb (OpcodeKind.Zicfiss .SSPUSH)] :=
  .inr (.inr (.inr ⟨rfl, rfl, 1#16, .SSPUSH, rfl, nofun, nofun⟩))
example : ¬ Panics .u16 .parse_rd [emb (1#16), emb (OpcodeKind.Zicfiss .C_SSPUSH)] := by
  rw [← modelled_panics (.rd16 1#16 (.Zicfiss .C_SSPUSH))]
  nofun
-- the hypotheses of the theorems are met by `decode` of a `u32`
example : (Id.u32, Id.decode) ∈ publicFns ∧ ([u32T, .named .Isa], res (.named .Instruction)) ∈ sigAt 6 .u32 .decode ∧
    HaveT .w64 [emb (0x00500093#32), emb Isa.Rv64] [u32T, .named .Isa] :=
  ⟨by decide, List.mem_singleton.2 rfl, .u32 _ _, .variant rfl rfl, trivial⟩
-- an instruction that no decoder returns: `addi` without operands; printing it panics
example : Panics .Instruction .fmt [emb (⟨.BaseI .ADDI, none, none, none, none, .IFormat, false⟩ : Instruction)] :=
  (modelled_panics (.panics _ rfl)).1 rfl

end Raki
