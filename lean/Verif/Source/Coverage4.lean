import Verif.Source.Coverage
/-!
# The tests on programs with one branch replaced, part 2
-/

namespace Raki.Source

theorem seen_panics_120 : ((seenBy.drop 120).take 8).all (seenPanics debug) = true := by kernel_rfl
theorem seen_panics_128 : ((seenBy.drop 128).take 8).all (seenPanics debug) = true := by kernel_rfl
theorem seen_panics_136 : ((seenBy.drop 136).take 8).all (seenPanics debug) = true := by kernel_rfl
theorem seen_panics_144 : ((seenBy.drop 144).take 8).all (seenPanics debug) = true := by kernel_rfl
theorem seen_panics_152 : ((seenBy.drop 152).take 8).all (seenPanics debug) = true := by kernel_rfl
theorem seen_panics_160 : ((seenBy.drop 160).take 8).all (seenPanics debug) = true := by kernel_rfl
theorem seen_panics_168 : ((seenBy.drop 168).take 8).all (seenPanics debug) = true := by kernel_rfl
theorem seen_panics_176 : ((seenBy.drop 176).take 8).all (seenPanics debug) = true := by kernel_rfl
theorem seen_panics_184 : ((seenBy.drop 184).take 8).all (seenPanics debug) = true := by kernel_rfl
theorem seen_panics_192 : ((seenBy.drop 192).take 8).all (seenPanics debug) = true := by kernel_rfl
theorem seen_panics_200 : ((seenBy.drop 200).take 8).all (seenPanics debug) = true := by kernel_rfl
theorem seen_panics_208 : ((seenBy.drop 208).take 8).all (seenPanics debug) = true := by kernel_rfl
theorem seen_panics_216 : ((seenBy.drop 216).take 8).all (seenPanics debug) = true := by kernel_rfl
theorem seen_panics_224 : ((seenBy.drop 224).take 8).all (seenPanics debug) = true := by kernel_rfl
theorem seen_panics_232 : ((seenBy.drop 232).take 8).all (seenPanics debug) = true := by kernel_rfl
theorem seen_panics_end : (seenBy.drop 240).all (seenPanics debug) = true := by kernel_rfl

theorem seen_panics_120_end : (seenBy.drop 120).all (seenPanics debug) = true :=
  all_drop seen_panics_120 <|
  all_drop seen_panics_128 <|
  all_drop seen_panics_136 <|
  all_drop seen_panics_144 <|
  all_drop seen_panics_152 <|
  all_drop seen_panics_160 <|
  all_drop seen_panics_168 <|
  all_drop seen_panics_176 <|
  all_drop seen_panics_184 <|
  all_drop seen_panics_192 <|
  all_drop seen_panics_200 <|
  all_drop seen_panics_208 <|
  all_drop seen_panics_216 <|
  all_drop seen_panics_224 <|
  all_drop seen_panics_232 <|
  seen_panics_end

end Raki.Source
