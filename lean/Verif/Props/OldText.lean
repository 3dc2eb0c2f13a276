import Verif.Model.OldOpcode
import Verif.Source.OldRead
/-!
# The model of the older opcode list is the text of its file
-/

namespace Raki

open Source

/-- How the file spells the formats. -/
def OldOpcode.formatName : InstFormat → String
  | .RFormat => "Rformat" | .RShamtFormat => "R_SHAMTformat" | .IFormat => "Iformat" | .SFormat => "Sformat"
  | .BFormat => "Bformat" | .UFormat => "Uformat" | .JFormat => "Jformat" | .CrFormat => "CRformat"
  | .CiFormat => "CIformat" | .CssFormat => "CSSformat" | .CiwFormat => "CIWformat" | .ClFormat => "CLformat"
  | .CsFormat => "CSformat" | .CaFormat => "CAformat" | .CbFormat => "CBformat" | .CjFormat => "CJformat"
  | .CsrFormat => "CSRformat" | .CsrUiFormat => "CSRuiformat" | .MFormat => "Mformat" | .AFormat => "Aformat"
  | .ALrFormat => "A_LRformat" | .NoOperand => "NoOperand" | _ => ""

/-- How the file spells the extensions. -/
def OldOpcode.extensionName : Extensions → String
  | .BaseI => "BaseI" | .M => "M" | .A => "A" | .C => "C" | .Zicsr => "Zicsr" | .Priv => "Priv" | _ => ""

/-- The number a text spells. -/
def spelled (s : String) : Nat := spell (codes s) 0

/-- The older entries. -/
private def allOld : List OldOpcode := (List.range 131).map OldOpcode.ofNat

private theorem mem_allOld (o : OldOpcode) : o ∈ allOld := by
  have : ∀ o : OldOpcode, o.ctorIdx < 131 ∧ OldOpcode.ofNat o.ctorIdx = o := by
    intro o; cases o <;> exact ⟨by decide, rfl⟩
  exact List.mem_map.2 ⟨o.ctorIdx, List.mem_range.2 (this o).1, (this o).2⟩

/-- The codes of a line. -/
private theorem codes_one (cs : List Nat) (s : String) (h : [s] = [cs].map line) (ha : ascii [cs] = true) :
    codes s = cs := by
  have := codes_lines [cs] [s] h ha
  simpa using this

private noncomputable def textC : List (List Nat) := codes_of% opcode_rs
private noncomputable def identC : List (List Nat) := codes_of% (allOld.map OldOpcode.ident)
private noncomputable def strC : List (List Nat) := codes_of% (allOld.map OldOpcode.toStr)
private noncomputable def formatC : List (List Nat) :=
  codes_of% (allOld.map fun o => OldOpcode.formatName o.getFormat)
private noncomputable def extC : List (List Nat) :=
  codes_of% (allOld.map fun o => OldOpcode.extensionName o.getExtension)

private theorem text_eq : opcode_rs.map codes = textC := codes_lines _ _ (by kernel_rfl) (by kernel_rfl)
private theorem ident_eq : (allOld.map OldOpcode.ident).map codes = identC :=
  codes_lines _ _ (by kernel_rfl) (by kernel_rfl)
private theorem str_eq : (allOld.map OldOpcode.toStr).map codes = strC :=
  codes_lines _ _ (by kernel_rfl) (by kernel_rfl)
private theorem format_eq : (allOld.map fun o => OldOpcode.formatName o.getFormat).map codes = formatC :=
  codes_lines _ _ (by kernel_rfl) (by kernel_rfl)
private theorem ext_eq : (allOld.map fun o => OldOpcode.extensionName o.getExtension).map codes = extC :=
  codes_lines _ _ (by kernel_rfl) (by kernel_rfl)

private theorem OpcodeKind_eq : codes "OpcodeKind" = [79, 112, 99, 111, 100, 101, 75, 105, 110, 100] :=
  codes_one _ _ (by kernel_rfl) (by kernel_rfl)
private theorem self_eq : codes "self" = [115, 101, 108, 102] := codes_one _ _ (by kernel_rfl) (by kernel_rfl)
private theorem get_format_eq : codes "get_format" = [103, 101, 116, 95, 102, 111, 114, 109, 97, 116] :=
  codes_one _ _ (by kernel_rfl) (by kernel_rfl)
private theorem get_extension_eq :
    codes "get_extension" = [103, 101, 116, 95, 101, 120, 116, 101, 110, 115, 105, 111, 110] :=
  codes_one _ _ (by kernel_rfl) (by kernel_rfl)
private theorem to_string_eq : codes "to_string" = [116, 111, 95, 115, 116, 114, 105, 110, 103] :=
  codes_one _ _ (by kernel_rfl) (by kernel_rfl)
private theorem InstFormat_eq : codes "InstFormat" = [73, 110, 115, 116, 70, 111, 114, 109, 97, 116] :=
  codes_one _ _ (by kernel_rfl) (by kernel_rfl)
private theorem Extensions_eq : codes "Extensions" = [69, 120, 116, 101, 110, 115, 105, 111, 110, 115] :=
  codes_one _ _ (by kernel_rfl) (by kernel_rfl)

/-- The methods read from the text. -/
private noncomputable def methods : List (Nat × List OldArm) :=
  (oldMethods [79, 112, 99, 111, 100, 101, 75, 105, 110, 100] [115, 101, 108, 102] textC).getD []

private noncomputable def arms (k : Nat) : List OldArm := ((methods[k]?).map (·.2)).getD []

private theorem values {f : OldOpcode → String} {C : List (List Nat)} (h : (allOld.map f).map codes = C)
    (as : List OldArm) (g : List Nat → OldValue)
    (hk : identC.map (fun c => oldValue (spell c 0) as) = C.map (fun c => some (g c))) (o : OldOpcode) :
    oldValue (spelled o.ident) as = some (g (codes (f o))) := by
  have e : allOld.map (fun o => oldValue (spelled o.ident) as) = allOld.map fun o => some (g (codes (f o))) := by
    rw [← ident_eq, ← h] at hk
    simpa only [List.map_map, Function.comp_def, spelled] using hk
  obtain ⟨k, hk, rfl⟩ := List.getElem_of_mem (mem_allOld o)
  have := congrArg (·[k]?) e
  simpa [List.getElem?_map, List.getElem?_eq_getElem hk] using this

private theorem names_known {as : List OldArm} (hk : as.flatMap (·.names) = identC.map (spell · 0)) :
    ∀ a ∈ as, ∀ x ∈ a.names, ∃ o : OldOpcode, x = spelled o.ident := by
  intro a ha x hx
  have hm : x ∈ as.flatMap (·.names) := List.mem_flatMap.2 ⟨a, ha, hx⟩
  rw [hk, ← ident_eq, List.map_map, List.map_map] at hm
  obtain ⟨o, _, rfl⟩ := List.mem_map.1 hm
  exact ⟨o, rfl⟩

/-- C77.  The text of the file has three methods, which give the formats, extensions and names of the model, and no other
opcodes. -/
theorem C77_text : ∃ formats extensions names,
    oldMethods (codes "OpcodeKind") (codes "self") (opcode_rs.map codes) =
      some [(spelled "get_format", formats), (spelled "get_extension", extensions), (spelled "to_string", names)] ∧
    (∀ o : OldOpcode,
      oldValue (spelled o.ident) formats =
        some (.path (spelled "InstFormat") (spelled (OldOpcode.formatName o.getFormat))) ∧
      oldValue (spelled o.ident) extensions =
        some (.path (spelled "Extensions") (spelled (OldOpcode.extensionName o.getExtension))) ∧
      oldValue (spelled o.ident) names = some (.text (codes o.toStr))) ∧
    ∀ a ∈ names, ∀ x ∈ a.names, ∃ o : OldOpcode, x = spelled o.ident := by
  refine ⟨arms 0, arms 1, arms 2, ?_, fun o => ⟨?_, ?_, ?_⟩, names_known (by kernel_rfl)⟩
  · rw [text_eq, OpcodeKind_eq, self_eq]
    simp only [spelled, get_format_eq, get_extension_eq, to_string_eq]
    kernel_rfl
  · rw [spelled, spelled, InstFormat_eq]
    exact values format_eq (arms 0) (fun c => .path _ (spell c 0)) (by kernel_rfl) o
  · rw [spelled, spelled, Extensions_eq]
    exact values ext_eq (arms 1) (fun c => .path _ (spell c 0)) (by kernel_rfl) o
  · exact values str_eq (arms 2) .text (by kernel_rfl) o

/-- No number twice. -/
private def once : List Nat → Bool
  | [] => true
  | a :: l => (Bool.not (l.any (Nat.beq a))).and (once l)

private theorem once_nodup : ∀ {l : List Nat}, once l = true → l.Nodup
  | [], _ => List.nodup_nil
  | a :: l, h => by
    rw [once, Bool.and_eq_true, Bool.not_eq_true', ← Bool.not_eq_true, List.any_eq_true] at h
    exact List.nodup_cons.2 ⟨fun hm => h.1 ⟨a, hm, Nat.beq_refl a⟩, once_nodup h.2⟩

/-- C77.  No method of the file lists an opcode twice, so that the order of its arms does not matter. -/
theorem C77_once {ms : List (Nat × List OldArm)}
    (h : oldMethods (codes "OpcodeKind") (codes "self") (opcode_rs.map codes) = some ms) :
    ∀ m ∈ ms, (m.2.flatMap (·.names)).Nodup := by
  rw [text_eq, OpcodeKind_eq, self_eq] at h
  have hk : (methods.all fun m => once (m.2.flatMap (·.names))) = true := by kernel_rfl
  have e : methods = ms := by rw [methods, h]; rfl
  intro m hm
  exact once_nodup (List.all_eq_true.1 hk m (e ▸ hm))

end Raki
