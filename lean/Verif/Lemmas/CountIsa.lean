import Verif.Spec.Count
/-!
# The sets of encodings, field by field
-/

namespace Raki

open Spec

theorem cubeOf_has (isa : Isa) (n : Nat) (r : Row) : (cubeOf isa r).has n = true ↔ fixed32 isa n r := by
  obtain ⟨f, m, f3, c⟩ := r
  cases isa <;> cases f <;>
    simp [cubeOf, cube32, top12, top7, top6, top5, Cube.has, Slot.has, fixed32, fld, Nat.div_div_eq_div_mul] <;> omega

theorem region_one (c : Cube) (n : Nat) : Region.has [c] n = c.has n := by simp [Region.has]

theorem officialRegion32_has (isa : Isa) (n : Nat) (op : OpcodeKind) :
    Region.has (officialRegion32 isa op) n = true ↔ official32 isa n op := by
  rcases op with o | o | o | o | o | o | o | o | o | o
  case Zicsr =>
    cases o
    case CSRRS =>
      simp [officialRegion32, inIsa, official32, existsIn, gated64, row32, cube32, top12, counters, counterCsr, fixed32,
        fld]
      cases isa <;> simp [region_one, Cube.has, Slot.has, Nat.div_div_eq_div_mul] <;> omega
    all_goals cases isa <;>
      simp [officialRegion32, inIsa, official32, existsIn, gated64, row32, region_one, cubeOf_has]
  all_goals cases o <;> cases isa <;>
    simp [officialRegion32, inIsa, official32, existsIn, gated64, row32, region_one, cubeOf_has] <;>
    simp [Region.has]

theorem region32_has (isa : Isa) (n : Nat) (op : OpcodeKind) :
    Region.has (region32 isa op) n = true ↔ accepts32 isa n op := by
  rcases op with o | o | o | o | o | o | o | o | o | o
  all_goals cases o <;> cases isa <;>
    simp [region32, accepts32, gated64, row32, region_one, cubeOf_has] <;>
    simp [Region.has, cube32, top12, top7, top5, Cube.has, Slot.has, counters, counterCsr, fld,
      Nat.div_div_eq_div_mul] <;> omega

theorem officialRegion16_has (isa : Isa) (n : Nat) (hn : n < 2 ^ 16) (op : OpcodeKind) :
    Region.has (officialRegion16 isa op) n = true ↔ official16 isa n op := by
  rcases op with o | o | o | o | o | o | o | o | o | o
  all_goals cases o <;> cases isa <;>
    simp [officialRegion16, official16, only64, shiftBit, Region.has, cube16, cubeAlu, Cube.has, Slot.has, quad, fld,
      Nat.div_div_eq_div_mul] <;> omega

theorem region16_has (isa : Isa) (n : Nat) (hn : n < 2 ^ 16) (op : OpcodeKind) :
    Region.has (region16 isa op) n = true ↔ accepts16 isa n op := by
  rcases op with o | o | o | o | o | o | o | o | o | o
  all_goals cases o <;> cases isa <;>
    simp [region16, officialRegion16, accepts16, official16, only64, Region.has, cube16, cubeAlu, Cube.has,
      Slot.has, quad, fld, Nat.div_div_eq_div_mul] <;> omega

end Raki
