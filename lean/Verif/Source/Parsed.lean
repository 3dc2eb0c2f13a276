import Verif.Source.Tokens
import Verif.Source.TestProgram
/-!
# The text of the crate parses to the trees

Lexing and parsing the text of the crate gives exactly the types and functions of `Verif.Source.Program`, and, when it is
compiled for its tests, also those of `Verif.Source.TestProgram`.
-/

namespace Raki.Source

theorem parse_of {test : Bool} {fs : List (String × List String)} {us : List (Nat × List Tok)} {k : Crate}
    (h : lexFiles (fs.map fun (m, ls) => (spell (codes m) 0, ls.map codes)) = some us) (hk : crateP test us = some k) :
    parse test fs = some k := by
  rw [parse, parseCodes, h]
  exact hk

theorem parse_tokens : crateP false tokens = some ⟨types, crate⟩ := by kernel_rfl

/-- The text of the crate parses to the types and functions of `Verif.Source.Program`. -/
theorem parse_files : parse false files = some ⟨types, crate⟩ :=
  parse_of lex_files parse_tokens

theorem parse_test_tokens : crateP true tokens = some ⟨types, testCrate⟩ := by kernel_rfl

/-- Likewise when the crate is compiled for its tests. -/
theorem parse_tests : parse true files = some ⟨types, testCrate⟩ :=
  parse_of lex_files parse_test_tokens

end Raki.Source
