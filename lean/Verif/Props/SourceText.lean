import Verif.Source.Parsed
import Verif.Source.Declared
import Verif.Source.Reading
import Verif.Props.Source
/-!
# From the text of the files to the runs

`Source.files` holds the lines of the crate's files, and `Source.parse` reads them: a lexer, a parser for the
part of Rust the crate uses, and the rules that say which function a name means.  The theorems below show
that what C60 and C61 run is what this reading gives, and that the types declared in the text are the types
of the model.
-/

namespace Raki

open Source

/-! ## C67: the text of the files says what is run -/

/-- C67.  The text of the files, read as Rust, is the program and the types the other theorems speak about. -/
theorem C67_parse : parse false files = some ⟨types, crate⟩ := parse_files

/-- C67.  Reading names loses nothing: every word the parser knows has its own spelling. -/
theorem C67_words : words.size = spelling.length ∧
    ∀ p ∈ spelling, words.find (spell (codes p.1) 0) = some p.2 := by
  refine ⟨words_size, fun p hp => ?_⟩
  obtain ⟨k, hk, rfl⟩ := List.getElem_of_mem hp
  have h := congrArg (fun l => l[k]?) words_spelled
  simpa [List.getElem?_map, List.getElem?_eq_getElem hk] using h

/-- C67.  The reader groups operators, casts and method calls as Rust does.  An expression of any size, written with
parentheses only where Rust's precedence asks for them and followed by something that ends it, is read as that expression. -/
theorem C67_operators (t : Term) (h : t.Known) (c : Ctx) (rest : List Tok)
    (hr : rest = [] ∨ ∃ o ∈ [Op.rparen, .rbrack, .rbrace, .comma, .semi], ∃ us, rest = .op o :: us) :
    ∃ N, ∀ n, N ≤ n → (rules n).expr c 0 (t.toks 0 ++ rest) = some (t.expr, rest) := by
  refine (t.reads h 0 (by omega)).whole (by omega) c ?_
  obtain rfl | ⟨o, ho, us, rfl⟩ := hr
  · trivial
  · intro k hk
    simp only [List.mem_cons, List.not_mem_nil, or_false] at ho
    obtain rfl | rfl | rfl | rfl | rfl := ho <;> cases hk

/-- Both sides of `inst.slice(6, 0) & 1 == 1 | 2 << (3 - 1)` are grouped. -/
example : (Term.bin .eq (.bin .and (.method (.name (spell (codes "inst") 0)) (spell (codes "slice") 0)
      (.cons (.num 6) (.cons (.num 0) .nil))) (.num 1))
      (.bin .or (.num 1) (.bin .shl (.num 2) (.bin .sub (.num 3) (.num 1))))).Known := by
  refine ⟨⟨⟨⟨.inst, rfl, by decide⟩, ⟨.slice, rfl⟩, trivial, trivial, trivial⟩, trivial⟩, trivial, trivial, trivial, trivial⟩

/-- C67.  Numbers of any size are read in base 2, 10 or 16, with underscores anywhere among the digits. -/
theorem C67_numbers (n : Nat) (cs : List Nat) :
    (cs.filter (· != 95) = (Nat.toDigits 2 n).map Char.toNat → number (codes "0b" ++ cs) = some (.num n none)) ∧
    (cs.filter (· != 95) = (Nat.toDigits 16 n).map Char.toNat → number (codes "0x" ++ cs) = some (.num n none)) ∧
    (cs.filter (· != 95) = (Nat.toDigits 10 n).map Char.toNat → number cs = some (.num n none)) := by
  refine ⟨fun h => ?_, fun h => ?_, number_decimal⟩
  · exact based_spelled (b := 2) (by decide) (by decide) h
  · exact based_spelled (b := 16) (by decide) (by decide) h

example : (codes "1_0110").filter (· != 95) = (Nat.toDigits 2 22).map Char.toNat := by decide

/-- C67.  The enumerations of the model have exactly the variants declared in the text, in order. -/
theorem C67_enums :
    SameEnum .Isa Isa ∧ SameEnum .Extensions Extensions ∧ SameEnum .DecodingError DecodingError ∧
    SameEnum .InstFormat InstFormat ∧ SameEnum .BaseIOpcode BaseIOpcode ∧ SameEnum .MOpcode MOpcode ∧
    SameEnum .AOpcode AOpcode ∧ SameEnum .COpcode COpcode ∧ SameEnum .ZifenceiOpcode ZifenceiOpcode ∧
    SameEnum .ZicbozOpcode ZicbozOpcode ∧ SameEnum .ZicsrOpcode ZicsrOpcode ∧
    SameEnum .ZicfissOpcode ZicfissOpcode ∧ SameEnum .ZicntrOpcode ZicntrOpcode ∧
    SameEnum .PrivOpcode PrivOpcode :=
  ⟨same_Isa, same_Extensions, same_DecodingError, same_InstFormat, same_BaseIOpcode, same_MOpcode, same_AOpcode,
    same_COpcode, same_ZifenceiOpcode, same_ZicbozOpcode, same_ZicsrOpcode, same_ZicfissOpcode,
    same_ZicntrOpcode, same_PrivOpcode⟩

theorem sameEnum_mem {t : Id} {α : Type} [Emb α] (h : SameEnum t α) (u : Val) :
    (∃ x : α, emb x = u) ↔ ∃ c, (c, none) ∈ variantsOf t ∧ u = .variant t c := by
  obtain ⟨l, hl, e, _⟩ := h
  constructor
  · rintro ⟨x, rfl⟩
    have : (emb x, none) ∈ l.map (fun x => (emb x, (none : Option Id))) := List.mem_map.2 ⟨x, hl x, rfl⟩
    rw [← e, List.mem_map] at this
    obtain ⟨⟨c, a⟩, hc, h⟩ := this
    obtain ⟨h1, h2⟩ := Prod.mk.inj h
    simp only at h1 h2
    subst h2
    exact ⟨c, hc, h1.symm⟩
  · rintro ⟨c, hc, rfl⟩
    have : (Val.variant t c, none) ∈ (variantsOf t).map (fun v => (Val.variant t v.1, v.2)) :=
      List.mem_map.2 ⟨(c, none), hc, rfl⟩
    rw [e, List.mem_map] at this
    obtain ⟨x, _, h⟩ := this
    exact ⟨x, (Prod.mk.inj h).1⟩

theorem variantsOf_kind : variantsOf .OpcodeKind =
    [(.BaseI, some .BaseIOpcode), (.M, some .MOpcode), (.A, some .AOpcode), (.C, some .COpcode),
     (.Zifencei, some .ZifenceiOpcode), (.Zicboz, some .ZicbozOpcode), (.Zicsr, some .ZicsrOpcode),
     (.Zicfiss, some .ZicfissOpcode), (.Zicntr, some .ZicntrOpcode), (.Priv, some .PrivOpcode)] := rfl

theorem kind_mem {t k : Id} {α : Type} [Emb α] (h : SameEnum t α) (f : α → OpcodeKind)
    (hf : ∀ x, emb (f x) = .variantOf .OpcodeKind k (emb x)) (c : Id) (hc : (c, none) ∈ variantsOf t) :
    ∃ x : OpcodeKind, emb x = .variantOf .OpcodeKind k (.variant t c) := by
  obtain ⟨y, hy⟩ := (sameEnum_mem h _).2 ⟨c, hc, rfl⟩
  exact ⟨f y, by rw [hf, hy]⟩

/-- C67.  The opcodes of the model are exactly the values the text's `OpcodeKind` declares. -/
theorem C67_opcodes (u : Val) :
    (∃ x : OpcodeKind, emb x = u) ↔
      ∃ v t c, (v, some t) ∈ variantsOf .OpcodeKind ∧ (c, none) ∈ variantsOf t ∧
        u = .variantOf .OpcodeKind v (.variant t c) := by
  constructor
  · rintro ⟨x, rfl⟩
    cases x with
    | BaseI y =>
      obtain ⟨c, hc, h⟩ := (sameEnum_mem same_BaseIOpcode _).1 ⟨y, rfl⟩
      exact ⟨.BaseI, _, c, by simp [variantsOf_kind], hc, congrArg _ h⟩
    | M y =>
      obtain ⟨c, hc, h⟩ := (sameEnum_mem same_MOpcode _).1 ⟨y, rfl⟩
      exact ⟨.M, _, c, by simp [variantsOf_kind], hc, congrArg _ h⟩
    | A y =>
      obtain ⟨c, hc, h⟩ := (sameEnum_mem same_AOpcode _).1 ⟨y, rfl⟩
      exact ⟨.A, _, c, by simp [variantsOf_kind], hc, congrArg _ h⟩
    | C y =>
      obtain ⟨c, hc, h⟩ := (sameEnum_mem same_COpcode _).1 ⟨y, rfl⟩
      exact ⟨.C, _, c, by simp [variantsOf_kind], hc, congrArg _ h⟩
    | Zifencei y =>
      obtain ⟨c, hc, h⟩ := (sameEnum_mem same_ZifenceiOpcode _).1 ⟨y, rfl⟩
      exact ⟨.Zifencei, _, c, by simp [variantsOf_kind], hc, congrArg _ h⟩
    | Zicboz y =>
      obtain ⟨c, hc, h⟩ := (sameEnum_mem same_ZicbozOpcode _).1 ⟨y, rfl⟩
      exact ⟨.Zicboz, _, c, by simp [variantsOf_kind], hc, congrArg _ h⟩
    | Zicsr y =>
      obtain ⟨c, hc, h⟩ := (sameEnum_mem same_ZicsrOpcode _).1 ⟨y, rfl⟩
      exact ⟨.Zicsr, _, c, by simp [variantsOf_kind], hc, congrArg _ h⟩
    | Zicfiss y =>
      obtain ⟨c, hc, h⟩ := (sameEnum_mem same_ZicfissOpcode _).1 ⟨y, rfl⟩
      exact ⟨.Zicfiss, _, c, by simp [variantsOf_kind], hc, congrArg _ h⟩
    | Zicntr y =>
      obtain ⟨c, hc, h⟩ := (sameEnum_mem same_ZicntrOpcode _).1 ⟨y, rfl⟩
      exact ⟨.Zicntr, _, c, by simp [variantsOf_kind], hc, congrArg _ h⟩
    | Priv y =>
      obtain ⟨c, hc, h⟩ := (sameEnum_mem same_PrivOpcode _).1 ⟨y, rfl⟩
      exact ⟨.Priv, _, c, by simp [variantsOf_kind], hc, congrArg _ h⟩
  · rintro ⟨v, t, c, hv, hc, rfl⟩
    simp only [variantsOf_kind, List.mem_cons, Prod.mk.injEq, Option.some.injEq, List.not_mem_nil, or_false] at hv
    rcases hv with ⟨rfl, rfl⟩ | ⟨rfl, rfl⟩ | ⟨rfl, rfl⟩ | ⟨rfl, rfl⟩ | ⟨rfl, rfl⟩ | ⟨rfl, rfl⟩ | ⟨rfl, rfl⟩ |
      ⟨rfl, rfl⟩ | ⟨rfl, rfl⟩ | ⟨rfl, rfl⟩
    · exact kind_mem same_BaseIOpcode .BaseI (fun _ => rfl) c hc
    · exact kind_mem same_MOpcode .M (fun _ => rfl) c hc
    · exact kind_mem same_AOpcode .A (fun _ => rfl) c hc
    · exact kind_mem same_COpcode .C (fun _ => rfl) c hc
    · exact kind_mem same_ZifenceiOpcode .Zifencei (fun _ => rfl) c hc
    · exact kind_mem same_ZicbozOpcode .Zicboz (fun _ => rfl) c hc
    · exact kind_mem same_ZicsrOpcode .Zicsr (fun _ => rfl) c hc
    · exact kind_mem same_ZicfissOpcode .Zicfiss (fun _ => rfl) c hc
    · exact kind_mem same_ZicntrOpcode .Zicntr (fun _ => rfl) c hc
    · exact kind_mem same_PrivOpcode .Priv (fun _ => rfl) c hc

/-- A value has the type a field is declared with; the types that are not numbers or options are told apart
by the name of the field. -/
def fieldOk : Id × Ty → Id × Val → Prop
  | (x, .option .usize), (y, v) => x = y ∧ ∃ o : Option Nat, emb o = v
  | (x, .option .i32), (y, v) => x = y ∧ ∃ o : Option Int, emb o = v
  | (.opc, .other), (y, v) => y = .opc ∧ ∃ o : OpcodeKind, emb o = v
  | (.inst_format, .other), (y, v) => y = .inst_format ∧ ∃ o : InstFormat, emb o = v
  | (.is_compressed, .other), (y, v) => y = .is_compressed ∧ ∃ b : Bool, emb b = v
  | _, _ => False

/-- The fields of a value against their declarations, one by one. -/
def fieldsOk : List (Id × Ty) → List (Id × Val) → Prop
  | [], [] => True
  | f :: fs, v :: vs => fieldOk f v ∧ fieldsOk fs vs
  | _, _ => False

theorem fieldsOk_cons {f : Id × Ty} {fs : List (Id × Ty)} {vs : List (Id × Val)} (h : fieldsOk (f :: fs) vs) :
    ∃ v us, vs = v :: us ∧ fieldOk f v ∧ fieldsOk fs us := by
  cases vs with
  | nil => exact h.elim
  | cons v us => exact ⟨v, us, rfl, h.1, h.2⟩

/-- C67.  The instructions of the model are exactly the values with the fields the text declares, in order. -/
theorem C67_fields (vs : List (Id × Val)) :
    fieldsOk (fieldsOf .Instruction) vs ↔ ∃ i : Instruction, emb i = .struct .Instruction vs := by
  have hf : fieldsOf .Instruction = [(.opc, .other), (.rd, .option .usize), (.rs1, .option .usize),
    (.rs2, .option .usize), (.imm, .option .i32), (.inst_format, .other), (.is_compressed, .other)] := rfl
  rw [hf]
  constructor
  · intro h
    obtain ⟨⟨x1, v1⟩, t1, rfl, ⟨rfl, o, rfl⟩, h1⟩ := fieldsOk_cons h
    obtain ⟨⟨x2, v2⟩, t2, rfl, ⟨rfl, rd, rfl⟩, h2⟩ := fieldsOk_cons h1
    obtain ⟨⟨x3, v3⟩, t3, rfl, ⟨rfl, rs1, rfl⟩, h3⟩ := fieldsOk_cons h2
    obtain ⟨⟨x4, v4⟩, t4, rfl, ⟨rfl, rs2, rfl⟩, h4⟩ := fieldsOk_cons h3
    obtain ⟨⟨x5, v5⟩, t5, rfl, ⟨rfl, imm, rfl⟩, h5⟩ := fieldsOk_cons h4
    obtain ⟨⟨x6, v6⟩, t6, rfl, ⟨rfl, fm, rfl⟩, h6⟩ := fieldsOk_cons h5
    obtain ⟨⟨x7, v7⟩, t7, rfl, ⟨rfl, b, rfl⟩, h7⟩ := fieldsOk_cons h6
    cases t7 with
    | nil => exact ⟨⟨o, rd, rs1, rs2, imm, fm, b⟩, rfl⟩
    | cons _ _ => exact h7.elim
  · rintro ⟨i, h⟩
    cases h
    exact ⟨⟨rfl, _, rfl⟩, ⟨rfl, _, rfl⟩, ⟨rfl, _, rfl⟩, ⟨rfl, _, rfl⟩, ⟨rfl, _, rfl⟩, ⟨rfl, _, rfl⟩, ⟨rfl, _, rfl⟩,
      trivial⟩

/-- C67.  Which traits the text derives: every public type but `Isa` is shown and compared by derived code. -/
theorem C67_derives : types.map (fun d => (d.name, d.derives)) =
    [(.Isa, [.Copy, .Clone]), (.Extensions, [.Debug]), (.DecodingError, [.Debug, .PartialEq]),
     (.Instruction, [.Debug, .PartialEq]), (.InstFormat, [.Debug, .PartialEq]),
     (.OpcodeKind, [.Debug, .PartialEq]), (.AOpcode, [.Debug, .PartialEq]),
     (.BaseIOpcode, [.Debug, .PartialEq]), (.COpcode, [.Debug, .PartialEq]), (.MOpcode, [.Debug, .PartialEq]),
     (.PrivOpcode, [.Debug, .PartialEq]), (.ZicbozOpcode, [.Debug, .PartialEq]),
     (.ZicfissOpcode, [.Debug, .PartialEq]), (.ZicntrOpcode, [.Debug, .PartialEq]),
     (.ZicsrOpcode, [.Debug, .PartialEq]), (.ZifenceiOpcode, [.Debug, .PartialEq])] := rfl

/-- C67.  Running the functions read from the text decodes words, converts numbers and shows instructions as
the model does. -/
theorem C67_runs (c : Crate) (hc : parse false files = some c) (md : Build) (d : Nat) (h : 6 ≤ d) :
    (∀ (w : BitVec 32) (isa : Isa), call c.fns md d .u32 .decode [emb w, emb isa] = outR (U32.decode w isa)) ∧
    (∀ (w : BitVec 16) (isa : Isa), call c.fns md d .u16 .decode [emb w, emb isa] = outR (U16.decode w isa)) ∧
    (∀ x : Nat, call c.fns md d .Instruction .try_from [emb x] = outR (try_from x)) ∧
    (∀ i : Instruction, text (call c.fns md d .Instruction .fmt [emb i]) = outV i.fmt) ∧
    (∀ (σ : Type) (w : Sink σ) (s : σ) (i : Instruction),
      writeTo w s (call c.fns md d .Instruction .fmt [emb i]) = some (i.fmtTo w s)) := by
  rw [C67_parse] at hc
  cases hc
  exact ⟨fun w isa => C60_decode32 md d (by omega) w isa, fun w isa => C60_decode16 md d (by omega) w isa,
    fun x => C60_try_from md d h x, fun i => C60_display md d (by omega) i,
    fun _ w s i => C60_display_to w s md d (by omega) i⟩

-- the text is there, and so is the program
example : files.length = 25 ∧ crate.length = 104 ∧ types.length = 16 := ⟨rfl, rfl, rfl⟩
-- the reader rejects what it does not cover, and tells names apart
example : (lexLines [[64]]).isNone := rfl
example : (parseCodes false [(1, [[102, 110, 32, 115, 101, 116, 40, 41]])]).isNone := rfl

end Raki
