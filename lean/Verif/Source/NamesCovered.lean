import Verif.Source.NamesRead
/-!
# Every path of the crate's text is looked at
-/

namespace Raki.Source

theorem covered_tokens : (scopes placeNames tokens).map (fun r => covered r.mods r.toks) =
    some true := by kernel_rfl

end Raki.Source
