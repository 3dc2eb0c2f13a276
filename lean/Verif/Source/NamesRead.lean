import Verif.Source.Places
/-!
# Every name of the crate's text stands for something
-/

namespace Raki.Source

theorem read_tokens : (scopes placeNames tokens).map (fun r => (allRead r.ctx r.mods, distinct (typeNames r.mods),
      samePaths ([] :: fileMods r.mods) placeNames)) =
    some (true, true, true) := by kernel_rfl

end Raki.Source
