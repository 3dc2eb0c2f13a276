import Verif.Source.FileCodes
import Verif.Source.Parser
/-!
# The tokens of the crate's files

Written out once, for the modules that go on from them.
-/

namespace Raki.Source

/-- The tokens of the files. -/
noncomputable def tokens : List (Nat × List Tok) := nf% ((lexFiles files_codes).getD [])

theorem lex_codes : lexFiles files_codes = some tokens := by kernel_rfl

theorem lex_files : lexFiles (files.map fun (m, ls) => (spell (codes m) 0, ls.map codes)) = some tokens := by
  rw [files_eq, lex_codes]

end Raki.Source
