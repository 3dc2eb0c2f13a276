import Verif.Source.Codes
/-!
# The files of the crate as character codes

Generated by tools/text.py; do not edit.
-/

namespace Raki.Source

/-- The spelling of every word, as character codes. -/
noncomputable def spelling_codes : List (List Nat) := codes_of% (spelling.map (·.1))

/-- The table of words agrees with their spelling. -/
theorem words_spelled : spelling.map (fun w => words.find (spell (codes w.1) 0)) = spelling.map (fun w => some w.2) := by
  have h : (spelling.map (·.1)).map codes = spelling_codes :=
    codes_lines spelling_codes _ (by kernel_rfl) (by kernel_rfl)
  have e : spelling.map (fun w => words.find (spell (codes w.1) 0)) =
      ((spelling.map (·.1)).map codes).map (fun c => words.find (spell c 0)) := by
    simp only [List.map_map, Function.comp_def]
  rw [e, h]
  kernel_rfl

/-- The table has no other words. -/
theorem words_size : words.size = spelling.length := by kernel_rfl

/-- The lines of `lib_rs`, as character codes. -/
noncomputable def lib_rs_codes : List (List Nat) := codes_of% lib_rs

theorem lib_rs_eq : (spell (codes "lib") 0, lib_rs.map codes) = (spell [108, 105, 98] 0, lib_rs_codes) :=
  codes_file _ _ _ _ (by kernel_rfl) (by kernel_rfl) (by kernel_rfl) (by kernel_rfl)

/-- The lines of `decode_rs`, as character codes. -/
noncomputable def decode_rs_codes : List (List Nat) := codes_of% decode_rs

theorem decode_rs_eq : (spell (codes "decode") 0, decode_rs.map codes) = (spell [100, 101, 99, 111, 100, 101] 0, decode_rs_codes) :=
  codes_file _ _ _ _ (by kernel_rfl) (by kernel_rfl) (by kernel_rfl) (by kernel_rfl)

/-- The lines of `instruction_rs`, as character codes. -/
noncomputable def instruction_rs_codes : List (List Nat) := codes_of% instruction_rs

theorem instruction_rs_eq : (spell (codes "instruction") 0, instruction_rs.map codes) = (spell [105, 110, 115, 116, 114, 117, 99, 116, 105, 111, 110] 0, instruction_rs_codes) :=
  codes_file _ _ _ _ (by kernel_rfl) (by kernel_rfl) (by kernel_rfl) (by kernel_rfl)

/-- The lines of `instruction_a_extension_rs`, as character codes. -/
noncomputable def instruction_a_extension_rs_codes : List (List Nat) := codes_of% instruction_a_extension_rs

theorem instruction_a_extension_rs_eq : (spell (codes "a_extension") 0, instruction_a_extension_rs.map codes) = (spell [97, 95, 101, 120, 116, 101, 110, 115, 105, 111, 110] 0, instruction_a_extension_rs_codes) :=
  codes_file _ _ _ _ (by kernel_rfl) (by kernel_rfl) (by kernel_rfl) (by kernel_rfl)

/-- The lines of `instruction_base_i_rs`, as character codes. -/
noncomputable def instruction_base_i_rs_codes : List (List Nat) := codes_of% instruction_base_i_rs

theorem instruction_base_i_rs_eq : (spell (codes "base_i") 0, instruction_base_i_rs.map codes) = (spell [98, 97, 115, 101, 95, 105] 0, instruction_base_i_rs_codes) :=
  codes_file _ _ _ _ (by kernel_rfl) (by kernel_rfl) (by kernel_rfl) (by kernel_rfl)

/-- The lines of `instruction_c_extension_rs`, as character codes. -/
noncomputable def instruction_c_extension_rs_codes : List (List Nat) := codes_of% instruction_c_extension_rs

theorem instruction_c_extension_rs_eq : (spell (codes "c_extension") 0, instruction_c_extension_rs.map codes) = (spell [99, 95, 101, 120, 116, 101, 110, 115, 105, 111, 110] 0, instruction_c_extension_rs_codes) :=
  codes_file _ _ _ _ (by kernel_rfl) (by kernel_rfl) (by kernel_rfl) (by kernel_rfl)

/-- The lines of `instruction_m_extension_rs`, as character codes. -/
noncomputable def instruction_m_extension_rs_codes : List (List Nat) := codes_of% instruction_m_extension_rs

theorem instruction_m_extension_rs_eq : (spell (codes "m_extension") 0, instruction_m_extension_rs.map codes) = (spell [109, 95, 101, 120, 116, 101, 110, 115, 105, 111, 110] 0, instruction_m_extension_rs_codes) :=
  codes_file _ _ _ _ (by kernel_rfl) (by kernel_rfl) (by kernel_rfl) (by kernel_rfl)

/-- The lines of `instruction_priv_extension_rs`, as character codes. -/
noncomputable def instruction_priv_extension_rs_codes : List (List Nat) := codes_of% instruction_priv_extension_rs

theorem instruction_priv_extension_rs_eq : (spell (codes "priv_extension") 0, instruction_priv_extension_rs.map codes) = (spell [112, 114, 105, 118, 95, 101, 120, 116, 101, 110, 115, 105, 111, 110] 0, instruction_priv_extension_rs_codes) :=
  codes_file _ _ _ _ (by kernel_rfl) (by kernel_rfl) (by kernel_rfl) (by kernel_rfl)

/-- The lines of `instruction_zicboz_extension_rs`, as character codes. -/
noncomputable def instruction_zicboz_extension_rs_codes : List (List Nat) := codes_of% instruction_zicboz_extension_rs

theorem instruction_zicboz_extension_rs_eq : (spell (codes "zicboz_extension") 0, instruction_zicboz_extension_rs.map codes) = (spell [122, 105, 99, 98, 111, 122, 95, 101, 120, 116, 101, 110, 115, 105, 111, 110] 0, instruction_zicboz_extension_rs_codes) :=
  codes_file _ _ _ _ (by kernel_rfl) (by kernel_rfl) (by kernel_rfl) (by kernel_rfl)

/-- The lines of `instruction_zicfiss_extension_rs`, as character codes. -/
noncomputable def instruction_zicfiss_extension_rs_codes : List (List Nat) := codes_of% instruction_zicfiss_extension_rs

theorem instruction_zicfiss_extension_rs_eq : (spell (codes "zicfiss_extension") 0, instruction_zicfiss_extension_rs.map codes) = (spell [122, 105, 99, 102, 105, 115, 115, 95, 101, 120, 116, 101, 110, 115, 105, 111, 110] 0, instruction_zicfiss_extension_rs_codes) :=
  codes_file _ _ _ _ (by kernel_rfl) (by kernel_rfl) (by kernel_rfl) (by kernel_rfl)

/-- The lines of `instruction_zicntr_extension_rs`, as character codes. -/
noncomputable def instruction_zicntr_extension_rs_codes : List (List Nat) := codes_of% instruction_zicntr_extension_rs

theorem instruction_zicntr_extension_rs_eq : (spell (codes "zicntr_extension") 0, instruction_zicntr_extension_rs.map codes) = (spell [122, 105, 99, 110, 116, 114, 95, 101, 120, 116, 101, 110, 115, 105, 111, 110] 0, instruction_zicntr_extension_rs_codes) :=
  codes_file _ _ _ _ (by kernel_rfl) (by kernel_rfl) (by kernel_rfl) (by kernel_rfl)

/-- The lines of `instruction_zicsr_extension_rs`, as character codes. -/
noncomputable def instruction_zicsr_extension_rs_codes : List (List Nat) := codes_of% instruction_zicsr_extension_rs

theorem instruction_zicsr_extension_rs_eq : (spell (codes "zicsr_extension") 0, instruction_zicsr_extension_rs.map codes) = (spell [122, 105, 99, 115, 114, 95, 101, 120, 116, 101, 110, 115, 105, 111, 110] 0, instruction_zicsr_extension_rs_codes) :=
  codes_file _ _ _ _ (by kernel_rfl) (by kernel_rfl) (by kernel_rfl) (by kernel_rfl)

/-- The lines of `instruction_zifencei_extension_rs`, as character codes. -/
noncomputable def instruction_zifencei_extension_rs_codes : List (List Nat) := codes_of% instruction_zifencei_extension_rs

theorem instruction_zifencei_extension_rs_eq : (spell (codes "zifencei_extension") 0, instruction_zifencei_extension_rs.map codes) = (spell [122, 105, 102, 101, 110, 99, 101, 105, 95, 101, 120, 116, 101, 110, 115, 105, 111, 110] 0, instruction_zifencei_extension_rs_codes) :=
  codes_file _ _ _ _ (by kernel_rfl) (by kernel_rfl) (by kernel_rfl) (by kernel_rfl)

/-- The lines of `decode_inst_16_rs`, as character codes. -/
noncomputable def decode_inst_16_rs_codes : List (List Nat) := codes_of% decode_inst_16_rs

theorem decode_inst_16_rs_eq : (spell (codes "inst_16") 0, decode_inst_16_rs.map codes) = (spell [105, 110, 115, 116, 95, 49, 54] 0, decode_inst_16_rs_codes) :=
  codes_file _ _ _ _ (by kernel_rfl) (by kernel_rfl) (by kernel_rfl) (by kernel_rfl)

/-- The lines of `decode_inst_32_rs`, as character codes. -/
noncomputable def decode_inst_32_rs_codes : List (List Nat) := codes_of% decode_inst_32_rs

theorem decode_inst_32_rs_eq : (spell (codes "inst_32") 0, decode_inst_32_rs.map codes) = (spell [105, 110, 115, 116, 95, 51, 50] 0, decode_inst_32_rs_codes) :=
  codes_file _ _ _ _ (by kernel_rfl) (by kernel_rfl) (by kernel_rfl) (by kernel_rfl)

/-- The lines of `decode_a_extension_rs`, as character codes. -/
noncomputable def decode_a_extension_rs_codes : List (List Nat) := codes_of% decode_a_extension_rs

theorem decode_a_extension_rs_eq : (spell (codes "a_extension") 0, decode_a_extension_rs.map codes) = (spell [97, 95, 101, 120, 116, 101, 110, 115, 105, 111, 110] 0, decode_a_extension_rs_codes) :=
  codes_file _ _ _ _ (by kernel_rfl) (by kernel_rfl) (by kernel_rfl) (by kernel_rfl)

/-- The lines of `decode_base_i_rs`, as character codes. -/
noncomputable def decode_base_i_rs_codes : List (List Nat) := codes_of% decode_base_i_rs

theorem decode_base_i_rs_eq : (spell (codes "base_i") 0, decode_base_i_rs.map codes) = (spell [98, 97, 115, 101, 95, 105] 0, decode_base_i_rs_codes) :=
  codes_file _ _ _ _ (by kernel_rfl) (by kernel_rfl) (by kernel_rfl) (by kernel_rfl)

/-- The lines of `decode_c_extension_rs`, as character codes. -/
noncomputable def decode_c_extension_rs_codes : List (List Nat) := codes_of% decode_c_extension_rs

theorem decode_c_extension_rs_eq : (spell (codes "c_extension") 0, decode_c_extension_rs.map codes) = (spell [99, 95, 101, 120, 116, 101, 110, 115, 105, 111, 110] 0, decode_c_extension_rs_codes) :=
  codes_file _ _ _ _ (by kernel_rfl) (by kernel_rfl) (by kernel_rfl) (by kernel_rfl)

/-- The lines of `decode_m_extension_rs`, as character codes. -/
noncomputable def decode_m_extension_rs_codes : List (List Nat) := codes_of% decode_m_extension_rs

theorem decode_m_extension_rs_eq : (spell (codes "m_extension") 0, decode_m_extension_rs.map codes) = (spell [109, 95, 101, 120, 116, 101, 110, 115, 105, 111, 110] 0, decode_m_extension_rs_codes) :=
  codes_file _ _ _ _ (by kernel_rfl) (by kernel_rfl) (by kernel_rfl) (by kernel_rfl)

/-- The lines of `decode_priv_extension_rs`, as character codes. -/
noncomputable def decode_priv_extension_rs_codes : List (List Nat) := codes_of% decode_priv_extension_rs

theorem decode_priv_extension_rs_eq : (spell (codes "priv_extension") 0, decode_priv_extension_rs.map codes) = (spell [112, 114, 105, 118, 95, 101, 120, 116, 101, 110, 115, 105, 111, 110] 0, decode_priv_extension_rs_codes) :=
  codes_file _ _ _ _ (by kernel_rfl) (by kernel_rfl) (by kernel_rfl) (by kernel_rfl)

/-- The lines of `decode_zicboz_extension_rs`, as character codes. -/
noncomputable def decode_zicboz_extension_rs_codes : List (List Nat) := codes_of% decode_zicboz_extension_rs

theorem decode_zicboz_extension_rs_eq : (spell (codes "zicboz_extension") 0, decode_zicboz_extension_rs.map codes) = (spell [122, 105, 99, 98, 111, 122, 95, 101, 120, 116, 101, 110, 115, 105, 111, 110] 0, decode_zicboz_extension_rs_codes) :=
  codes_file _ _ _ _ (by kernel_rfl) (by kernel_rfl) (by kernel_rfl) (by kernel_rfl)

/-- The lines of `decode_zicfiss_extension_rs`, as character codes. -/
noncomputable def decode_zicfiss_extension_rs_codes : List (List Nat) := codes_of% decode_zicfiss_extension_rs

theorem decode_zicfiss_extension_rs_eq : (spell (codes "zicfiss_extension") 0, decode_zicfiss_extension_rs.map codes) = (spell [122, 105, 99, 102, 105, 115, 115, 95, 101, 120, 116, 101, 110, 115, 105, 111, 110] 0, decode_zicfiss_extension_rs_codes) :=
  codes_file _ _ _ _ (by kernel_rfl) (by kernel_rfl) (by kernel_rfl) (by kernel_rfl)

/-- The lines of `decode_zicntr_extension_rs`, as character codes. -/
noncomputable def decode_zicntr_extension_rs_codes : List (List Nat) := codes_of% decode_zicntr_extension_rs

theorem decode_zicntr_extension_rs_eq : (spell (codes "zicntr_extension") 0, decode_zicntr_extension_rs.map codes) = (spell [122, 105, 99, 110, 116, 114, 95, 101, 120, 116, 101, 110, 115, 105, 111, 110] 0, decode_zicntr_extension_rs_codes) :=
  codes_file _ _ _ _ (by kernel_rfl) (by kernel_rfl) (by kernel_rfl) (by kernel_rfl)

/-- The lines of `decode_zicsr_extension_rs`, as character codes. -/
noncomputable def decode_zicsr_extension_rs_codes : List (List Nat) := codes_of% decode_zicsr_extension_rs

theorem decode_zicsr_extension_rs_eq : (spell (codes "zicsr_extension") 0, decode_zicsr_extension_rs.map codes) = (spell [122, 105, 99, 115, 114, 95, 101, 120, 116, 101, 110, 115, 105, 111, 110] 0, decode_zicsr_extension_rs_codes) :=
  codes_file _ _ _ _ (by kernel_rfl) (by kernel_rfl) (by kernel_rfl) (by kernel_rfl)

/-- The lines of `decode_zifencei_extension_rs`, as character codes. -/
noncomputable def decode_zifencei_extension_rs_codes : List (List Nat) := codes_of% decode_zifencei_extension_rs

theorem decode_zifencei_extension_rs_eq : (spell (codes "zifencei_extension") 0, decode_zifencei_extension_rs.map codes) = (spell [122, 105, 102, 101, 110, 99, 101, 105, 95, 101, 120, 116, 101, 110, 115, 105, 111, 110] 0, decode_zifencei_extension_rs_codes) :=
  codes_file _ _ _ _ (by kernel_rfl) (by kernel_rfl) (by kernel_rfl) (by kernel_rfl)

/-- The files as character codes. -/
noncomputable def files_codes : List (Nat × List (List Nat)) :=
  [(spell [108, 105, 98] 0, lib_rs_codes),
   (spell [100, 101, 99, 111, 100, 101] 0, decode_rs_codes),
   (spell [105, 110, 115, 116, 114, 117, 99, 116, 105, 111, 110] 0, instruction_rs_codes),
   (spell [97, 95, 101, 120, 116, 101, 110, 115, 105, 111, 110] 0, instruction_a_extension_rs_codes),
   (spell [98, 97, 115, 101, 95, 105] 0, instruction_base_i_rs_codes),
   (spell [99, 95, 101, 120, 116, 101, 110, 115, 105, 111, 110] 0, instruction_c_extension_rs_codes),
   (spell [109, 95, 101, 120, 116, 101, 110, 115, 105, 111, 110] 0, instruction_m_extension_rs_codes),
   (spell [112, 114, 105, 118, 95, 101, 120, 116, 101, 110, 115, 105, 111, 110] 0, instruction_priv_extension_rs_codes),
   (spell [122, 105, 99, 98, 111, 122, 95, 101, 120, 116, 101, 110, 115, 105, 111, 110] 0, instruction_zicboz_extension_rs_codes),
   (spell [122, 105, 99, 102, 105, 115, 115, 95, 101, 120, 116, 101, 110, 115, 105, 111, 110] 0, instruction_zicfiss_extension_rs_codes),
   (spell [122, 105, 99, 110, 116, 114, 95, 101, 120, 116, 101, 110, 115, 105, 111, 110] 0, instruction_zicntr_extension_rs_codes),
   (spell [122, 105, 99, 115, 114, 95, 101, 120, 116, 101, 110, 115, 105, 111, 110] 0, instruction_zicsr_extension_rs_codes),
   (spell [122, 105, 102, 101, 110, 99, 101, 105, 95, 101, 120, 116, 101, 110, 115, 105, 111, 110] 0, instruction_zifencei_extension_rs_codes),
   (spell [105, 110, 115, 116, 95, 49, 54] 0, decode_inst_16_rs_codes),
   (spell [105, 110, 115, 116, 95, 51, 50] 0, decode_inst_32_rs_codes),
   (spell [97, 95, 101, 120, 116, 101, 110, 115, 105, 111, 110] 0, decode_a_extension_rs_codes),
   (spell [98, 97, 115, 101, 95, 105] 0, decode_base_i_rs_codes),
   (spell [99, 95, 101, 120, 116, 101, 110, 115, 105, 111, 110] 0, decode_c_extension_rs_codes),
   (spell [109, 95, 101, 120, 116, 101, 110, 115, 105, 111, 110] 0, decode_m_extension_rs_codes),
   (spell [112, 114, 105, 118, 95, 101, 120, 116, 101, 110, 115, 105, 111, 110] 0, decode_priv_extension_rs_codes),
   (spell [122, 105, 99, 98, 111, 122, 95, 101, 120, 116, 101, 110, 115, 105, 111, 110] 0, decode_zicboz_extension_rs_codes),
   (spell [122, 105, 99, 102, 105, 115, 115, 95, 101, 120, 116, 101, 110, 115, 105, 111, 110] 0, decode_zicfiss_extension_rs_codes),
   (spell [122, 105, 99, 110, 116, 114, 95, 101, 120, 116, 101, 110, 115, 105, 111, 110] 0, decode_zicntr_extension_rs_codes),
   (spell [122, 105, 99, 115, 114, 95, 101, 120, 116, 101, 110, 115, 105, 111, 110] 0, decode_zicsr_extension_rs_codes),
   (spell [122, 105, 102, 101, 110, 99, 101, 105, 95, 101, 120, 116, 101, 110, 115, 105, 111, 110] 0, decode_zifencei_extension_rs_codes)]

theorem files_eq : files.map (fun (m, ls) => (spell (codes m) 0, ls.map codes)) = files_codes := by
  simp only [files, List.map_cons, List.map_nil, files_codes,
    lib_rs_eq,
    decode_rs_eq,
    instruction_rs_eq,
    instruction_a_extension_rs_eq,
    instruction_base_i_rs_eq,
    instruction_c_extension_rs_eq,
    instruction_m_extension_rs_eq,
    instruction_priv_extension_rs_eq,
    instruction_zicboz_extension_rs_eq,
    instruction_zicfiss_extension_rs_eq,
    instruction_zicntr_extension_rs_eq,
    instruction_zicsr_extension_rs_eq,
    instruction_zifencei_extension_rs_eq,
    decode_inst_16_rs_eq,
    decode_inst_32_rs_eq,
    decode_a_extension_rs_eq,
    decode_base_i_rs_eq,
    decode_c_extension_rs_eq,
    decode_m_extension_rs_eq,
    decode_priv_extension_rs_eq,
    decode_zicboz_extension_rs_eq,
    decode_zicfiss_extension_rs_eq,
    decode_zicntr_extension_rs_eq,
    decode_zicsr_extension_rs_eq,
    decode_zifencei_extension_rs_eq]

end Raki.Source
