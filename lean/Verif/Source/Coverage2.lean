import Verif.Source.Coverage
/-!
# The tests on the program with holes, builds with wrapping arithmetic
-/

namespace Raki.Source

theorem holed_wrapping_w16 : holedRuns ⟨.wrapping, .w16⟩ = true := by kernel_rfl
theorem holed_wrapping_w32 : holedRuns ⟨.wrapping, .w32⟩ = true := by kernel_rfl
theorem holed_wrapping_w64 : holedRuns ⟨.wrapping, .w64⟩ = true := by kernel_rfl

end Raki.Source
