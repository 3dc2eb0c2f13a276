import Verif.Source.Client
import Verif.Source.ClientNames
import Verif.Source.ReadmeText
import Verif.Props.DocExamples
import Verif.Props.Scope
import Verif.Props.Source
import Verif.Props.Accept
import Verif.Props.Derived
/-!
# C94: what the examples of the documentation check

The examples that rustdoc runs, and the program in README.md, read from the text and run as programs of another crate.
A run takes the functions of the crate as a parameter, so that the theorems say for which crates an example runs to its
end.
-/

namespace Raki

open Source Spec

set_option linter.constructorNameAsVariable false

/-- `inst_bytes` -/
def inst_bytes_name : Nat := spell [105, 110, 115, 116, 95, 98, 121, 116, 101, 115] 0

/-- `inst` -/
def inst_name : Nat := spell [105, 110, 115, 116] 0

/-- `illegal_inst` -/
def illegal_inst_name : Nat := spell [105, 108, 108, 101, 103, 97, 108, 95, 105, 110, 115, 116] 0

/-- `rv64_inst` -/
def rv64_inst_name : Nat := spell [114, 118, 54, 52, 95, 105, 110, 115, 116] 0

/-- `error` -/
def error_name : Nat := spell [101, 114, 114, 111, 114] 0

/-- `example` -/
def example_name : Nat := spell [101, 120, 97, 109, 112, 108, 101] 0

/-! ## The programs -/

/-- What the functions of a crate do: type, function and arguments. -/
abbrev Library := Source.Id → Source.Id → List Val → Out Val

/-- The name of an ISA. -/
def Isa.name : Isa → Source.Id
  | .Rv32 => .Rv32
  | .Rv64 => .Rv64

/-- The program of the example of the crate and of README.md, with any word and ISA in the place of those shown. -/
def shownProgram (n : Nat) (isa : Isa) : CStmts :=
  .let_ inst_bytes_name .u32 (.num n)
  (.let_ inst_name .other
    (.okOrPanic (.method (.var inst_bytes_name) .decode (.variant .Isa isa.name))
      inst_name (.var inst_name))
  (.assertEq (.field (.var inst_name) .opc) (.variantOf .OpcodeKind .BaseI (.variant .BaseIOpcode .ADDI))
  (.println [.display (.var inst_name)] .done)))

/-- The word that is shown. -/
def shownWord : Nat := 0b1110_1110_1100_0010_1000_0010_1001_0011

/-- The example of the crate: the program is the body of a function. -/
def docCrate : CStmts := .fn example_name (shownProgram shownWord .Rv32) .done

/-- The example of `DecodingError`. -/
def docError : CStmts :=
  .let_ illegal_inst_name .u32 (.num 0)
  (.ifErr error_name (.method (.var illegal_inst_name) .decode (.variant .Isa .Rv64))
    (.assert (.matches_ (.var error_name) .DecodingError .InvalidOpcode) .done)
  (.let_ rv64_inst_name .u32 (.num 0b100000000100010011010000100011)
  (.ifErr error_name (.method (.var rv64_inst_name) .decode (.variant .Isa .Rv32))
    (.assert (.matches_ (.var error_name) .DecodingError .OnlyRv64Inst) .done)
  .done)))

/-- The example of `Decode`. -/
def docDecode : CStmts :=
  .let_ inst_name .u32 (.num shownWord)
  (.println [.debug (.method (.var inst_name) .decode (.variant .Isa .Rv64))] .done)

/-- The names that the crate makes public. -/
def publicSpellings : List Nat := publicNames.map fun e => spelled e.1

theorem publicSpellings_eq : publicSpellings = publicCodes.map fun e => spell e.1 0 := by
  have h := congrArg (List.map Prod.fst) public_eq
  rw [List.map_map, List.map_map] at h
  exact h

/-- The code blocks of a text in Markdown: what stands behind the backquotes (96), and the lines; `o` is the block that
is open. -/
def fencesFrom : List (List Nat) → Option (List Nat × List (List Nat)) → List (List Nat × List (List Nat))
  | [], _ => []
  | (96 :: 96 :: 96 :: info) :: ls, none => fencesFrom ls (some (info, []))
  | _ :: ls, none => fencesFrom ls none
  | [96, 96, 96] :: ls, some b => b :: fencesFrom ls none
  | l :: ls, some b => fencesFrom ls (some (b.1, b.2 ++ [l]))

/-- The program in README.md, README.md:12-25. -/
def exampleReadme : List String := exampleCrate.map fun l => if l = "fn example() {" then "fn main() {" else l

private noncomputable def readmeCodes : List (List Nat) := codes_of% readme_md
private noncomputable def exampleReadmeCodes : List (List Nat) := codes_of% exampleReadme

/-- C94.  The examples that rustdoc runs, those with nothing behind the backquotes, are the first three of the five; and
README.md has one code block, which is the example of the crate but for the name of its function. -/
theorem C94_blocks :
    (files.flatMap fun f => ((blocks (f.2.map codes)).filter (·.info.isEmpty)).map (·.body)) =
      [exampleCrate, exampleError, exampleDecode].map (·.map codes) ∧
    fencesFrom (readme_md.map codes) none = [(codes "rust", exampleReadme.map codes)] := by
  have hf : (files.flatMap fun f => ((blocks (f.2.map codes)).filter (·.info.isEmpty)).map (·.body)) =
      files_codes.flatMap fun c => ((blocks c.2).filter (·.info.isEmpty)).map (·.body) := by
    rw [← files_eq, List.flatMap_map]
  have h0 := codes_lines (codes_of% exampleCrate) exampleCrate (by kernel_rfl) (by kernel_rfl)
  have h1 := codes_lines (codes_of% exampleError) exampleError (by kernel_rfl) (by kernel_rfl)
  have h2 := codes_lines (codes_of% exampleDecode) exampleDecode (by kernel_rfl) (by kernel_rfl)
  have h3 := codes_lines readmeCodes readme_md (by kernel_rfl) (by kernel_rfl)
  have h4 := codes_lines exampleReadmeCodes exampleReadme (by kernel_rfl) (by kernel_rfl)
  have h5 : codes "rust" = [114, 117, 115, 116] := by decide
  refine ⟨?_, ?_⟩
  · rw [hf, List.map_cons, List.map_cons, List.map_cons, List.map_nil, h0, h1, h2]
    kernel_rfl
  · rw [h3, h4, h5]
    kernel_rfl

/-- C94.  The examples, read from the text, with the names that C88 says are public. -/
theorem C94_read :
    client publicSpellings (exampleCrate.map codes) = some docCrate ∧
    client publicSpellings (exampleError.map codes) = some docError ∧
    client publicSpellings (exampleDecode.map codes) = some docDecode ∧
    client publicSpellings (exampleReadme.map codes) = some (shownProgram shownWord .Rv32) := by
  have h0 := codes_lines (codes_of% exampleCrate) exampleCrate (by kernel_rfl) (by kernel_rfl)
  have h1 := codes_lines (codes_of% exampleError) exampleError (by kernel_rfl) (by kernel_rfl)
  have h2 := codes_lines (codes_of% exampleDecode) exampleDecode (by kernel_rfl) (by kernel_rfl)
  have h4 := codes_lines exampleReadmeCodes exampleReadme (by kernel_rfl) (by kernel_rfl)
  rw [h0, h1, h2, h4, publicSpellings_eq]
  exact ⟨by kernel_rfl, by kernel_rfl, by kernel_rfl, by kernel_rfl⟩

/-! ## For which crates the examples run to their end -/

/-- A call returns `Ok(..)`, or this error. -/
def OkOr (c : Source.Id) (r : Out Val) : Prop :=
  (∃ v, r = .val (.variantOf .Result .Ok v)) ∨ r = .val (.variantOf .Result .Err (.variant .DecodingError c))

/-- C94.  The example of the crate runs to its end whatever the functions of the crate do: it declares a function and
does not call it. -/
theorem C94_crate (call : Library) : crun call [] [] docCrate = .ended [] := rfl

theorem ifErr_ended (call : Library) (env : List (Nat × Val)) (x : Nat) (e : CExpr) (c : Source.Id) (rest : CStmts)
    (out : List String) :
    crun call env [] (.ifErr x e (.assert (.matches_ (.var x) .DecodingError c) .done) rest) = .ended out ↔
      OkOr c (ceval call env e) ∧ crun call env [] rest = .ended out := by
  rw [crun]
  generalize ceval call env e = r
  unfold OkOr Ending.after
  cases r with
  | panic => simp
  | stuck => simp
  | ret v => simp
  | val v =>
    by_cases ho : ∃ w, v = .variantOf .Result .Ok w
    · obtain ⟨w, rfl⟩ := ho
      simp
    by_cases he : ∃ w, v = .variantOf .Result .Err w
    · obtain ⟨w, rfl⟩ := he
      simp only [crun, ceval, lookupVar, if_true, matchPat, bind_val, Out.val.injEq, Val.variantOf.injEq, reduceCtorEq,
        true_and, false_and, exists_false, false_or]
      cases w with
      | variant ty d =>
        by_cases ht : Id.DecodingError = ty
        · subst ht
          by_cases hc : c = d
          · subst hc
            simp [Ending.after]
          · simp [Ending.after, hc, Ne.symm hc]
        · simp [Ending.after, ht, Ne.symm ht]
      | variantOf ty d w =>
        by_cases ht : Id.DecodingError = ty <;> simp [Ending.after, ht]
      | _ => simp [Ending.after]
    · constructor
      · intro h
        exfalso
        revert h
        simp only []
        split
        · rename_i w
          exact absurd ⟨w, rfl⟩ he
        · rename_i w
          exact absurd ⟨w, rfl⟩ ho
        · nofun
      · rintro ⟨h | h, -⟩
        · obtain ⟨w, h⟩ := h
          exact absurd ⟨w, Out.val.inj h⟩ ho
        · exact absurd ⟨_, Out.val.inj h⟩ he

/-- C94.  The example of `DecodingError` runs to its end exactly if decoding the first word returns an instruction or
the error that is shown, and so for the second: it does not say that either of them is an error. -/
theorem C94_error (call : Library) (out : List String) : crun call [] [] docError = .ended out ↔
    out = [] ∧ OkOr .InvalidOpcode (call .u32 .decode [.u32 0, .variant .Isa .Rv64]) ∧
    OkOr .OnlyRv64Inst (call .u32 .decode [.u32 0b100000000100010011010000100011, .variant .Isa .Rv32]) := by
  have h1 : ∀ env, ceval call ((illegal_inst_name, .u32 0) :: env)
      (.method (.var illegal_inst_name) .decode (.variant .Isa .Rv64)) =
      call .u32 .decode [.u32 0, .variant .Isa .Rv64] := fun env => rfl
  have h2 : ∀ env, ceval call ((rv64_inst_name, .u32 0b100000000100010011010000100011) :: env)
      (.method (.var rv64_inst_name) .decode (.variant .Isa .Rv32)) =
      call .u32 .decode [.u32 0b100000000100010011010000100011, .variant .Isa .Rv32] := fun env => rfl
  have h3 : ∀ env ss, crun call env [] (.let_ illegal_inst_name .u32 (.num 0) ss) =
      crun call ((illegal_inst_name, .u32 0) :: env) [] ss := fun _ _ => rfl
  have h4 : ∀ env ss, crun call env [] (.let_ rv64_inst_name .u32 (.num 0b100000000100010011010000100011) ss) =
      crun call ((rv64_inst_name, .u32 0b100000000100010011010000100011) :: env) [] ss := fun _ _ => rfl
  unfold docError
  simp only [h3, ifErr_ended, h1, h4, h2]
  constructor
  · rintro ⟨a, b, c⟩
    cases c
    exact ⟨rfl, a, b⟩
  · rintro ⟨rfl, a, b⟩
    exact ⟨a, b, rfl⟩

/-- C94.  The example of `Decode` runs to its end exactly if decoding the word it shows returns, whatever it returns. -/
theorem C94_decode (call : Library) (out : List String) : crun call [] [] docDecode = .ended out ↔
    ∃ v, call .u32 .decode [.u32 0b1110_1110_1100_0010_1000_0010_1001_0011, .variant .Isa .Rv64] = .val v ∧
      out = [debugVal v] := by
  have h : crun call [] [] docDecode = Ending.after [] ((call .u32 .decode
      [.u32 0b1110_1110_1100_0010_1000_0010_1001_0011, .variant .Isa .Rv64]).bind fun v => .val (debugVal v ++ ""))
      fun s => .ended [s] := rfl
  rw [h]
  generalize call .u32 .decode _ = r
  cases r <;> simp [Out.bind, Ending.after, eq_comm]

/-- C94.  So a crate whose `decode` returns the same instruction for every word passes all three. -/
theorem C94_blind (call : Library) (v : Val) (h : ∀ args, call .u32 .decode args = .val (.variantOf .Result .Ok v)) :
    ∀ p ∈ [docCrate, docError, docDecode], ∃ out, crun call [] [] p = .ended out := by
  intro p hp
  simp only [List.mem_cons, List.not_mem_nil, or_false] at hp
  rcases hp with rfl | rfl | rfl
  · exact ⟨_, C94_crate call⟩
  · exact ⟨_, (C94_error call _).2 ⟨rfl, .inl ⟨v, h _⟩, .inl ⟨v, h _⟩⟩⟩
  · exact ⟨_, (C94_decode call _).2 ⟨_, h _, rfl⟩⟩

/-- There is such a crate. -/
example : ∃ fns : List Fn, ∀ md d args, args.length = 2 →
    call fns md (d + 1) .u32 .decode args = .val (.variantOf .Result .Ok (.variant .Isa .Rv32)) :=
  ⟨[⟨.u32, .decode, [(.self, .other), (.isa, .other)], .other, .variantOf .Result .Ok (.variant .Isa .Rv32)⟩],
    fun md d args h => by
      match args, h with
      | [a, b], _ => rfl⟩

/-! ## The examples with this crate -/

theorem call_word (md : Build) (d : Nat) (h : 4 ≤ d) (n : Nat) (isa : Isa) :
    call crate md d .u32 .decode [coerce .u32 (.lit n), .variant .Isa isa.name]
      = outR (U32.decode (BitVec.ofNat 32 n) isa) := by
  cases isa
  · exact C60_decode32 md d h (BitVec.ofNat 32 n) .Rv32
  · exact C60_decode32 md d h (BitVec.ofNat 32 n) .Rv64

/-- C94.  What the program that is shown does, with any word and ISA in the place of those shown: it prints the text of
the instruction if the word is decoded as `addi`, and panics otherwise, having printed nothing. -/
theorem C94_program (md : Build) (d : Nat) (h : 4 ≤ d) (w : BitVec 32) (isa : Isa) :
    crun (call crate md d) [] [] (shownProgram w.toNat isa) =
      match U32.decode w isa with
      | .ok i => if i.opc = .BaseI .ADDI then (match i.fmt with
        | .ok s => .ended [s]
        | _ => .panicked []) else .panicked []
      | _ => .panicked [] := by
  have h1 : crun (call crate md d) [] [] (shownProgram w.toNat isa) =
      Ending.after [] ((call crate md d .u32 .decode [coerce .u32 (.lit w.toNat),
          .variant .Isa isa.name]).bind fun r => match r with
        | .variantOf .Result .Ok v => .val v
        | .variantOf .Result .Err _ => .panic
        | _ => .stuck) fun v =>
      Ending.after [] (match v with
        | .struct _ fs => getField fs .opc
        | _ => .stuck) fun o =>
      match eqVal o (emb (OpcodeKind.BaseI .ADDI)) with
      | true => Ending.after [] (match typeOf v with
        | some ty => (call crate md d ty .fmt [v]).bind fun r => match r with
          | .wrote cs => .val (String.join cs ++ "")
          | _ => .stuck
        | none => .stuck) fun s => .ended [s]
      | false => .panicked [] := rfl
  rw [h1, call_word md d h, BitVec.ofNat_toNat, BitVec.setWidth_eq]
  cases U32.decode w isa with
  | panic => rfl
  | err e => rfl
  | ok i =>
    have h2 : eqVal (emb i.opc) (emb (OpcodeKind.BaseI .ADDI)) = decide (i.opc = .BaseI .ADDI) := by
      rw [Bool.eq_iff_iff, C68_eq_opcode, decide_eq_true_iff]
    obtain ⟨n, rfl⟩ := depth_le h
    have h3 := Instruction_fmt_eq md (n + 1) i
    have h4 : Ending.after [] ((call crate md (n + 4) .Instruction .fmt [emb i]).bind fun r => match r with
          | .wrote cs => .val (String.join cs ++ "")
          | _ => .stuck) (fun s => .ended [s]) = match i.fmt with
        | .ok s => .ended [s]
        | _ => .panicked [] := by
      rw [show n + 4 = n + 1 + 3 from rfl, h3]
      rcases fmtTo_agree (fun s _ => (s, true)) () i with ⟨h1, -, h2⟩ | ⟨cs, h1, -, h2⟩ <;> rw [h1, h2]
      · rfl
      · exact congrArg (fun s => Ending.ended [s]) (String.append_empty)
    refine Eq.trans (b := match eqVal (emb i.opc) (emb (OpcodeKind.BaseI .ADDI)) with
      | true => Ending.after [] ((call crate md (n + 4) .Instruction .fmt [emb i]).bind fun r => match r with
          | .wrote cs => .val (String.join cs ++ "")
          | _ => .stuck) (fun s => .ended [s])
      | false => .panicked []) rfl ?_
    rw [h2, h4]
    by_cases ho : i.opc = .BaseI .ADDI
    · simp only [decide_eq_true ho, if_pos ho]
    · simp only [decide_eq_false ho, if_neg ho]

/-- C94.  It ends without a panic exactly for the encodings of `addi`. -/
theorem C94_program_ends (md : Build) (d : Nat) (h : 4 ≤ d) (w : BitVec 32) (isa : Isa) :
    (∃ out, crun (call crate md d) [] [] (shownProgram w.toNat isa) = .ended out) ↔
      w.toNat % 2 ^ 7 = 0b0010011 ∧ w.toNat / 2 ^ 12 % 2 ^ 3 = 0 := by
  have ha := C07_accepts32_exact w isa (.BaseI .ADDI)
  rw [C94_program md d h]
  have hb : accepts32 isa w.toNat (.BaseI .ADDI) ↔ w.toNat % 2 ^ 7 = 0b0010011 ∧ w.toNat / 2 ^ 12 % 2 ^ 3 = 0 := by
    simp [accepts32, gated64, row32, fixed32, fld]
  rw [← hb, ← ha]
  cases hd : U32.decode w isa with
  | panic => simp
  | err e => simp
  | ok i =>
    by_cases ho : i.opc = .BaseI .ADDI
    · have hp : i.fmt ≠ .panic := C32_no_panic_partial i (.inl ⟨w, isa, hd⟩) (by simp [ho]) (by simp [ho])
        (by simp [ho]) (by simp [ho])
      have he : ∀ e, i.fmt ≠ .err e := fun e => by
        rcases fmtTo_agree (fun s _ => (s, true)) () i with ⟨h2, -, -⟩ | ⟨cs, h2, -, -⟩ <;> rw [h2] <;> nofun
      cases hf : i.fmt with
      | panic => exact absurd hf hp
      | err e => exact absurd hf (he e)
      | ok s => simp [ho, hf]
    · simp [ho]

/-- C94.  The program of README.md prints what README.md says it prints, and the examples of `DecodingError` and
`Decode` run to their end. -/
theorem C94_runs (md : Build) (d : Nat) (h : 4 ≤ d) :
    crun (call crate md d) [] [] (shownProgram shownWord .Rv32) = .ended ["addi t0, t0, -276"] ∧
    exampleReadme.drop 12 = ["// --output--", "// addi t0, t0, -276"] ∧
    crun (call crate md d) [] [] docError = .ended [] ∧
    crun (call crate md d) [] [] docDecode = .ended ["Ok(Instruction { opc: BaseI(ADDI), rd: Some(5), rs1: Some(5), " ++
      "rs2: None, imm: Some(-276), inst_format: IFormat, is_compressed: false })"] := by
  refine ⟨?_, rfl, ?_, ?_⟩
  · exact (C94_program md d h (BitVec.ofNat 32 shownWord) .Rv32).trans rfl
  · exact (C94_error _ _).2 ⟨rfl, .inr (call_word md d h 0 .Rv64), .inr (call_word md d h _ .Rv32)⟩
  · rw [C94_decode]
    exact ⟨_, call_word md d h shownWord .Rv64, by decide⟩

/-- C94.  The two examples that rustdoc does not run could not be compiled: the module they import from is private. -/
theorem C94_private :
    client publicSpellings (exampleSlice.map codes) = none ∧ client publicSpellings (exampleSet.map codes) = none ∧
    exampleSlice.head? = some "use raki::decode::DecodeUtil;" ∧
    exampleSet.head? = some "use raki::decode::DecodeUtil;" ∧
    ∃ r, scopesOf places files = some r ∧
      ∀ t, ([spelled "decode", spelled "DecodeUtil"], t) ∉ exports r.lib 5 [] := by
  have h0 := codes_lines (codes_of% exampleSlice) exampleSlice (by kernel_rfl) (by kernel_rfl)
  have h1 := codes_lines (codes_of% exampleSet) exampleSet (by kernel_rfl) (by kernel_rfl)
  refine ⟨?_, ?_, rfl, rfl, ?_⟩
  · rw [h0, publicSpellings_eq]
    kernel_rfl
  · rw [h1, publicSpellings_eq]
    kernel_rfl
  · obtain ⟨r, h, he⟩ := C88_names
    refine ⟨r, h, fun t hm => ?_⟩
    rw [he, List.mem_map] at hm
    obtain ⟨_, -, e⟩ := hm
    have := congrArg (fun x => x.1.length) e
    cases this

/-- A program that decodes a word, behind the `use` declarations it starts with. -/
def decodeZero (uses : String) : List String :=
  [uses, "let x: u32 = 0;", "println!(\"{:?}\", x.decode(Isa::Rv32));"]

/-- C94.  A program that uses a name it has not imported, imports one that is not public or from another crate, or calls
`decode` without importing the trait, is not read. -/
theorem C94_rejects :
    (∃ x, client publicSpellings ((decodeZero "use raki::{Decode, Isa};").map codes) = some (.let_ x .u32 (.num 0)
      (.println [.debug (.method (.var x) .decode (.variant .Isa .Rv32))] .done))) ∧
    ∀ uses ∈ ["use raki::Isa;", "use raki::Decode;", "use other::{Decode, Isa};",
        "use raki::{Decode, DecodeUtil, Isa};"],
      client publicSpellings ((decodeZero uses).map codes) = none := by
  have h0 := codes_lines (codes_of% (decodeZero "use raki::{Decode, Isa};")) (decodeZero "use raki::{Decode, Isa};")
    (by kernel_rfl) (by kernel_rfl)
  have h1 := codes_lines (codes_of% (decodeZero "use raki::Isa;")) (decodeZero "use raki::Isa;")
    (by kernel_rfl) (by kernel_rfl)
  have h2 := codes_lines (codes_of% (decodeZero "use raki::Decode;")) (decodeZero "use raki::Decode;")
    (by kernel_rfl) (by kernel_rfl)
  have h3 := codes_lines (codes_of% (decodeZero "use other::{Decode, Isa};")) (decodeZero "use other::{Decode, Isa};")
    (by kernel_rfl) (by kernel_rfl)
  have h4 := codes_lines (codes_of% (decodeZero "use raki::{Decode, DecodeUtil, Isa};"))
    (decodeZero "use raki::{Decode, DecodeUtil, Isa};") (by kernel_rfl) (by kernel_rfl)
  simp only [List.forall_mem_cons, List.not_mem_nil, false_implies, implies_true, and_true]
  rw [h0, h1, h2, h3, h4, publicSpellings_eq]
  exact ⟨⟨spell [120] 0, by kernel_rfl⟩, by kernel_rfl, by kernel_rfl, by kernel_rfl, by kernel_rfl⟩

/-- The same inside a function, and behind it what reads a variant. -/
def decodeInside (uses behind : String) : List String := ["fn g() {"] ++ decodeZero uses ++ ["}", behind]

/-- C94.  What is imported inside a function can be used there and not behind it; and what is not imported cannot be
used inside a function either. -/
theorem C94_scopes :
    (∃ f x y, client publicSpellings ((decodeInside "use raki::{Decode, Isa};" "let y: u32 = 1;").map codes) =
      some (.fn f (.let_ x .u32 (.num 0) (.println [.debug (.method (.var x) .decode (.variant .Isa .Rv32))] .done))
        (.let_ y .u32 (.num 1) .done))) ∧
    client publicSpellings ((decodeInside "use raki::Decode;" "let y: u32 = 1;").map codes) = none ∧
    client publicSpellings ((decodeInside "use raki::Isa;" "let y: u32 = 1;").map codes) = none ∧
    client publicSpellings ((decodeInside "use raki::{Decode, Isa};" "assert!(Isa::Rv32);").map codes) = none := by
  have h0 := codes_lines (codes_of% (decodeInside "use raki::{Decode, Isa};" "let y: u32 = 1;"))
    (decodeInside "use raki::{Decode, Isa};" "let y: u32 = 1;") (by kernel_rfl) (by kernel_rfl)
  have h1 := codes_lines (codes_of% (decodeInside "use raki::Decode;" "let y: u32 = 1;"))
    (decodeInside "use raki::Decode;" "let y: u32 = 1;") (by kernel_rfl) (by kernel_rfl)
  have h2 := codes_lines (codes_of% (decodeInside "use raki::Isa;" "let y: u32 = 1;"))
    (decodeInside "use raki::Isa;" "let y: u32 = 1;") (by kernel_rfl) (by kernel_rfl)
  have h3 := codes_lines (codes_of% (decodeInside "use raki::{Decode, Isa};" "assert!(Isa::Rv32);"))
    (decodeInside "use raki::{Decode, Isa};" "assert!(Isa::Rv32);") (by kernel_rfl) (by kernel_rfl)
  rw [h0, h1, h2, h3, publicSpellings_eq]
  exact ⟨⟨spell [103] 0, spell [120] 0, spell [121] 0, by kernel_rfl⟩, by kernel_rfl, by kernel_rfl, by kernel_rfl⟩

/-- C94.  For all texts and all choices of the names that are public: a program that is read names no type but by a
public name, and calls a method only if the name of the trait is public. -/
theorem C94_within {pub : List Nat} {text : List (List Nat)} {ss : CStmts} (h : client pub text = some ss) :
    ss.Within pub := by
  simp only [client, Option.bind_eq_bind, Option.bind_eq_some_iff] at h
  obtain ⟨ts, -, h⟩ := h
  split at h
  · rename_i ss' hs
    cases h
    have hw := cstmts_within 100 (names := []) (fun _ h => nomatch h) hs
    cases hb : ss'.body mainName with
    | none => exact hw
    | some b => exact body_within hb hw
  · cases h

/-- It speaks of programs that do call methods and name types. -/
example : ¬ docError.Within [] ∧ docError.Within publicSpellings :=
  ⟨(fun h => nomatch h.2.1.1), C94_within C94_read.2.1⟩

/-- C94.  Lines are printed in order, and stay printed if the program panics behind them. -/
theorem C94_prints (call : Library) (env : List (Nat × Val)) (out : List String) (a b : String) (ss : CStmts) :
    crun call env out (.println [.text a] (.println [.text b] .done)) = .ended (out ++ [a, b]) ∧
    crun call env out (.println [.text a] (.assertEq (.num 0) (.num 1) ss)) = .panicked (out ++ [a]) := by
  have h (s : String) : ctext call env [.text s] = .val s := congrArg Out.val String.append_empty
  constructor
  · simp only [crun, h, Ending.after, List.append_assoc, List.cons_append, List.nil_append]
  · simp only [crun, h, Ending.after, ceval]
    rfl

end Raki
