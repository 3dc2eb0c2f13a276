import Verif.Source.Headers
import Verif.Source.Tokens
/-!
# The declared types of the crate's functions and fields

`headsOf files` evaluated: the types that the text declares are those of `Verif.Source.Signatures`.
-/

namespace Raki.Source

/-- The functions that types have because they implement a trait of the crate. -/
def asked : List (Id × Id) :=
  [.AOpcode, .BaseIOpcode, .COpcode, .MOpcode, .PrivOpcode, .ZicbozOpcode, .ZicfissOpcode, .ZicntrOpcode,
   .ZicsrOpcode, .ZifenceiOpcode].map (·, .get_format) ++
  [.u16, .u32].flatMap fun o => [(o, .decode), (o, .parse_opcode), (o, .parse_rd), (o, .parse_rs1), (o, .parse_rs2),
    (o, .parse_imm), (o, .slice), (o, .«set»), (o, .parse_extension), (o, .to_signed_nbit)]

theorem head_tokens : (headFiles tokens ⟨[], [], [], [], []⟩).map (fun d =>
      (d.sigs, d.records, d.required.map fun r => (r.2.types d r.1, d.provided r.1 r.2.name))) =
    some (some (crate.map fun fn => (fn.owner, fn.name, sigAt 6 fn.owner fn.name)),
      some [(.Instruction, (membersOf .Instruction).getD [])],
      asked.map fun p => (some (sigAt 6 p.1 p.2), some (sigAt 6 p.1 p.2))) := by kernel_rfl

theorem heads_of {α : Type} {fs : List (String × List String)} {us : List (Nat × List Tok)} {f : Heads → α} {k : α}
    (h : lexFiles (fs.map fun (m, ls) => (spell (codes m) 0, ls.map codes)) = some us)
    (hk : (headFiles us ⟨[], [], [], [], []⟩).map f = some k) : (headsOf fs).map f = some k := by
  rw [headsOf, headCodes, h]
  exact hk

/-- The same for the lines of the files. -/
theorem heads_files : (headsOf files).map (fun d =>
      (d.sigs, d.records, d.required.map fun r => (r.2.types d r.1, d.provided r.1 r.2.name))) =
    some (some (crate.map fun fn => (fn.owner, fn.name, sigAt 6 fn.owner fn.name)),
      some [(.Instruction, (membersOf .Instruction).getD [])],
      asked.map fun p => (some (sigAt 6 p.1 p.2), some (sigAt 6 p.1 p.2))) :=
  heads_of lex_files head_tokens

end Raki.Source
