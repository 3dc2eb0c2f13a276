import Verif.Source.NamesCovered
/-!
# What other crates see of the crate and what it uses
-/

namespace Raki.Source

theorem public_tokens : (scopes placeNames tokens).map (fun r => (exports r.lib 5 [],
      (callable r.lib).map (fun e => (e.1.bind ident, ident e.2)),
      usesOnly (coreCodes.map fun p => p.map (spell · 0)) (preludeCodes.map (spell · 0)) r.lib,
      r.toks.all fun u => lacks (unusedCodes.map (spell · 0)) u.2)) =
    some (publicItems (publicCodes.map fun (n, p, t) => (spell n 0, p.map (spell · 0), t)),
      publicFns.map (fun e => (some e.1, some e.2)), true, true) := by kernel_rfl

end Raki.Source
