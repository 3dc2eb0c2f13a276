import Verif.Source.Coverage
/-!
# The tests on programs with one branch replaced, part 1
-/

namespace Raki.Source

theorem seen_panics_0 : ((seenBy.drop 0).take 8).all (seenPanics debug) = true := by kernel_rfl
theorem seen_panics_8 : ((seenBy.drop 8).take 8).all (seenPanics debug) = true := by kernel_rfl
theorem seen_panics_16 : ((seenBy.drop 16).take 8).all (seenPanics debug) = true := by kernel_rfl
theorem seen_panics_24 : ((seenBy.drop 24).take 8).all (seenPanics debug) = true := by kernel_rfl
theorem seen_panics_32 : ((seenBy.drop 32).take 8).all (seenPanics debug) = true := by kernel_rfl
theorem seen_panics_40 : ((seenBy.drop 40).take 8).all (seenPanics debug) = true := by kernel_rfl
theorem seen_panics_48 : ((seenBy.drop 48).take 8).all (seenPanics debug) = true := by kernel_rfl
theorem seen_panics_56 : ((seenBy.drop 56).take 8).all (seenPanics debug) = true := by kernel_rfl
theorem seen_panics_64 : ((seenBy.drop 64).take 8).all (seenPanics debug) = true := by kernel_rfl
theorem seen_panics_72 : ((seenBy.drop 72).take 8).all (seenPanics debug) = true := by kernel_rfl
theorem seen_panics_80 : ((seenBy.drop 80).take 8).all (seenPanics debug) = true := by kernel_rfl
theorem seen_panics_88 : ((seenBy.drop 88).take 8).all (seenPanics debug) = true := by kernel_rfl
theorem seen_panics_96 : ((seenBy.drop 96).take 8).all (seenPanics debug) = true := by kernel_rfl
theorem seen_panics_104 : ((seenBy.drop 104).take 8).all (seenPanics debug) = true := by kernel_rfl
theorem seen_panics_112 : ((seenBy.drop 112).take 8).all (seenPanics debug) = true := by kernel_rfl

theorem seen_panics (h : (seenBy.drop 120).all (seenPanics debug) = true) :
    seenBy.all (seenPanics debug) = true :=
  all_zero <| all_drop seen_panics_0 <|
  all_drop seen_panics_8 <|
  all_drop seen_panics_16 <|
  all_drop seen_panics_24 <|
  all_drop seen_panics_32 <|
  all_drop seen_panics_40 <|
  all_drop seen_panics_48 <|
  all_drop seen_panics_56 <|
  all_drop seen_panics_64 <|
  all_drop seen_panics_72 <|
  all_drop seen_panics_80 <|
  all_drop seen_panics_88 <|
  all_drop seen_panics_96 <|
  all_drop seen_panics_104 <|
  all_drop seen_panics_112 <|
  h

end Raki.Source
