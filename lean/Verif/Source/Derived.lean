import Verif.Source.Spelling
import Verif.Source.Relate
import Verif.Model.Flags
/-!
# What `#[derive(Debug, PartialEq)]` means for source values

The code the compiler derives for a type follows its declaration: `Debug` writes the names in the
declaration and the fields in order, `PartialEq` compares the variants and then the fields.  Here this is
written once for all types, on the values of the source.
-/

namespace Raki.Source

mutual

/-- `{:?}`.  Only numbers of type `usize` and `i32`, `bool` and the declared types occur as fields. -/
def debugVal : Val → String
  | .usize n => toString n
  | .i32 z => toString z
  | .bool b => debugBool b
  | .variant _ c => c.text
  | .variantOf _ c v => c.text ++ "(" ++ debugVal v ++ ")"
  | .struct t fs => t.text ++ " { " ++ debugFields fs ++ " }"
  | _ => ""

/-- The fields of a struct, separated by commas. -/
def debugFields : List (Id × Val) → String
  | [] => ""
  | [(x, v)] => x.text ++ ": " ++ debugVal v
  | (x, v) :: fs => x.text ++ ": " ++ debugVal v ++ ", " ++ debugFields fs

end

mutual

/-- `{:#?}`, for the values whose types the crate declares. -/
def prettyVal : Val → String
  | .variantOf _ c v => prettyTuple1 c.text (prettyVal v)
  | .struct t fs => prettyStruct t.text (prettyFields fs)
  | v => debugVal v

/-- The names and texts of the fields. -/
def prettyFields : List (Id × Val) → List (String × String)
  | [] => []
  | (x, v) :: fs => (x.text, prettyVal v) :: prettyFields fs

end

/-- Names and texts of fields, separated by commas. -/
def plainFields : List (String × String) → String
  | [] => ""
  | [f] => f.1 ++ ": " ++ f.2
  | f :: fs => f.1 ++ ": " ++ f.2 ++ ", " ++ plainFields fs

/-- `debug_struct_fields_finish` without `#`. -/
def plainStruct (name : String) (fields : List (String × String)) : String :=
  name ++ " { " ++ plainFields fields ++ " }"

mutual

/-- `Debug` under flags: names are written as they are, and the fields get the same flags. -/
def debugValWith (f : Flags) : Val → String
  | .usize n => debugUsizeWith f n
  | .i32 z => debugI32With f z
  | .bool b => debugBoolWith f b
  | .variant _ c => c.text
  | .variantOf _ c v =>
    if f.alternate then prettyTuple1 c.text (debugValWith f v) else c.text ++ "(" ++ debugValWith f v ++ ")"
  | .struct t fs =>
    if f.alternate then prettyStruct t.text (debugFieldsWith f fs) else plainStruct t.text (debugFieldsWith f fs)
  | _ => ""

/-- The names and texts of the fields. -/
def debugFieldsWith (f : Flags) : List (Id × Val) → List (String × String)
  | [] => []
  | (x, v) :: fs => (x.text, debugValWith f v) :: debugFieldsWith f fs

end

end Raki.Source
