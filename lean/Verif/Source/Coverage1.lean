import Verif.Source.Coverage
/-!
# The tests on the program with holes, builds with checked arithmetic
-/

namespace Raki.Source

theorem holed_checked_w16 : holedRuns ⟨.checked, .w16⟩ = true := by kernel_rfl
theorem holed_checked_w32 : holedRuns ⟨.checked, .w32⟩ = true := by kernel_rfl
theorem holed_checked_w64 : holedRuns ⟨.checked, .w64⟩ = true := by kernel_rfl

end Raki.Source
