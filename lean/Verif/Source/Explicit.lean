import Verif.Source.ElaborateSound
import Verif.Source.Signatures
import Verif.Source.Codes
/-!
# The crate with its types written out
-/

namespace Raki.Source

/-- What comes out for the types of the functions. -/
def bodiesOf (fns : List Fn) : List (List (Option Expr)) :=
  fns.map fun fn => (sigAt 6 fn.owner fn.name).map (annotateFn (sigAt 6) fn)

/-- The bodies of the functions of the crate, in which every literal has its type and every call its function. -/
noncomputable def explicitBodies : List Expr := nf% ((bodiesOf crate).filterMap fun l => l.head?.join)

theorem explicit_crate : bodiesOf crate =
    (crate.zip explicitBodies).map fun p => (sigAt 6 p.1.owner p.1.name).map fun _ => some p.2 := by kernel_rfl

theorem explicit_length : crate.length = explicitBodies.length := by kernel_rfl

/-- The crate with its types written out. -/
noncomputable def explicitCrate : List Fn := (crate.zip explicitBodies).map fun p => { p.1 with body := p.2 }

theorem annotates_crate : Annotates (sigAt 6) crate explicitCrate :=
  annotates_bodies explicit_crate explicit_length

end Raki.Source
