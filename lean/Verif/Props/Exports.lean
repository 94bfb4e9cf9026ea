import Verif.Spec.Exports
import Verif.Data.Exports

/-
Property C115: the library exports the functions that its header declares.
-/

namespace Idn2
open Spec Spec.Exports Exports

/-- The functions that the version script exports. -/
theorem exported_eq : exported mapText =
  ([
    0x6E6F69737265765F6B636568635F326E6469,  -- idn2_check_version
    0x656572665F326E6469,  -- idn2_free
    0x38755F70756B6F6F6C5F326E6469,  -- idn2_lookup_u8
    0x38755F72657473696765725F326E6469,  -- idn2_register_u8
    0x6C755F70756B6F6F6C5F326E6469,  -- idn2_lookup_ul
    0x6C755F65646F6365645F326E6469,  -- idn2_decode_ul
    0x6C755F72657473696765725F326E6469,  -- idn2_register_ul
    0x69345F69696373615F6F745F326E6469,  -- idn2_to_ascii_4i
    0x7A345F69696373615F6F745F326E6469,  -- idn2_to_ascii_4z
    0x7A385F69696373615F6F745F326E6469,  -- idn2_to_ascii_8z
    0x7A6C5F69696373615F6F745F326E6469,  -- idn2_to_ascii_lz
    0x7A347A385F65646F63696E755F6F745F326E6469,  -- idn2_to_unicode_8z4z
    0x7A347A345F65646F63696E755F6F745F326E6469,  -- idn2_to_unicode_4z4z
    0x6934345F65646F63696E755F6F745F326E6469,  -- idn2_to_unicode_44i
    0x7A387A385F65646F63696E755F6F745F326E6469,  -- idn2_to_unicode_8z8z
    0x7A6C7A385F65646F63696E755F6F745F326E6469,  -- idn2_to_unicode_8zlz
    0x7A6C7A6C5F65646F63696E755F6F745F326E6469,  -- idn2_to_unicode_lzlz
    0x726F7272657274735F326E6469,  -- idn2_strerror
    0x656D616E5F726F7272657274735F326E6469,  -- idn2_strerror_name
    0x65646F636E655F65646F63796E75705F326E64695F,  -- _idn2_punycode_encode
    0x65646F6365645F65646F63796E75705F326E64695F,  -- _idn2_punycode_decode
    0x3269345F69696373615F6F745F326E6469  -- idn2_to_ascii_4i2
  ].map (bytes 200)) := by
  decide +kernel

/-- The functions of the header. -/
theorem declared_eq : declared headerText =
  ([
    0x38755F70756B6F6F6C5F326E6469,  -- idn2_lookup_u8
    0x38755F72657473696765725F326E6469,  -- idn2_register_u8
    0x6C755F70756B6F6F6C5F326E6469,  -- idn2_lookup_ul
    0x6C755F72657473696765725F326E6469,  -- idn2_register_ul
    0x69345F69696373615F6F745F326E6469,  -- idn2_to_ascii_4i
    0x3269345F69696373615F6F745F326E6469,  -- idn2_to_ascii_4i2
    0x7A345F69696373615F6F745F326E6469,  -- idn2_to_ascii_4z
    0x7A385F69696373615F6F745F326E6469,  -- idn2_to_ascii_8z
    0x7A6C5F69696373615F6F745F326E6469,  -- idn2_to_ascii_lz
    0x7A347A385F65646F63696E755F6F745F326E6469,  -- idn2_to_unicode_8z4z
    0x7A347A345F65646F63696E755F6F745F326E6469,  -- idn2_to_unicode_4z4z
    0x6934345F65646F63696E755F6F745F326E6469,  -- idn2_to_unicode_44i
    0x7A387A385F65646F63696E755F6F745F326E6469,  -- idn2_to_unicode_8z8z
    0x7A6C7A385F65646F63696E755F6F745F326E6469,  -- idn2_to_unicode_8zlz
    0x7A6C7A6C5F65646F63696E755F6F745F326E6469,  -- idn2_to_unicode_lzlz
    0x726F7272657274735F326E6469,  -- idn2_strerror
    0x656D616E5F726F7272657274735F326E6469,  -- idn2_strerror_name
    0x6E6F69737265765F6B636568635F326E6469,  -- idn2_check_version
    0x656572665F326E6469  -- idn2_free
  ].map (bytes 200)) := by
  decide +kernel

/-- The functions that the sources define. -/
theorem defined_eq : defined definitionText =
  ([
    0x43464E73695F,  -- _isNFC
    0x63666E5F3233755F6F745F38755F326E64695F,  -- _idn2_u8_to_u32_nfc
    0x705F69696373615F326E64695F,  -- _idn2_ascii_p
    0x747365745F6C6562616C5F326E64695F,  -- _idn2_label_test
    0x7265776F6C6F745F63,  -- c_tolower
    0x706D63657361636E7274735F63,  -- c_strncasecmp
    0x7367616C665F746C75616665645F746573,  -- set_default_flags
    0x6C6562616C,  -- label
    0x363472745F,  -- _tr46
    0x38755F70756B6F6F6C5F326E6469,  -- idn2_lookup_u8
    0x6C755F70756B6F6F6C5F326E6469,  -- idn2_lookup_ul
    0x69345F69696373615F6F745F326E6469,  -- idn2_to_ascii_4i
    0x3269345F69696373615F6F745F326E6469,  -- idn2_to_ascii_4i2
    0x7A345F69696373615F6F745F326E6469,  -- idn2_to_ascii_4z
    0x7A385F69696373615F6F745F326E6469,  -- idn2_to_ascii_8z
    0x7A6C5F69696373615F6F745F326E6469,  -- idn2_to_ascii_lz
    0x7A347A385F65646F63696E755F6F745F326E6469,  -- idn2_to_unicode_8z4z
    0x7A347A345F65646F63696E755F6F745F326E6469,  -- idn2_to_unicode_4z4z
    0x6934345F65646F63696E755F6F745F326E6469,  -- idn2_to_unicode_44i
    0x7A387A385F65646F63696E755F6F745F326E6469,  -- idn2_to_unicode_8z8z
    0x7A6C7A385F65646F63696E755F6F745F326E6469,  -- idn2_to_unicode_8zlz
    0x7A6C7A6C5F65646F63696E755F6F745F326E6469,  -- idn2_to_unicode_lzlz
    0x38755F72657473696765725F326E6469,  -- idn2_register_u8
    0x6C755F72657473696765725F326E6469,  -- idn2_register_ul
    0x6964694273695F,  -- _isBidi
    0x696469625F326E64695F,  -- _idn2_bidi
    0x6E6F69737265765F6B636568635F326E6469,  -- idn2_check_version
    0x726F7272657274735F326E6469,  -- idn2_strerror
    0x656D616E5F726F7272657274735F326E6469,  -- idn2_strerror_name
    0x74696769645F65646F636E65,  -- encode_digit
    0x7470616461,  -- adapt
    0x65646F636E655F65646F63796E7570,  -- punycode_encode
    0x65646F636E655F65646F63796E75705F326E64695F,  -- _idn2_punycode_encode
    0x5F5F6D73615F5F,  -- __asm__
    0x74696769645F65646F636564,  -- decode_digit
    0x7470616461,  -- adapt
    0x65646F6365645F65646F63796E7570,  -- punycode_decode
    0x65646F6365645F65646F63796E75705F326E64695F,  -- _idn2_punycode_decode
    0x5F5F6D73615F5F,  -- __asm__
    0x656572665F326E6469,  -- idn2_free
    0x70616D5F6C6C69665F,  -- _fill_map
    0x70616D5F616E64695F657261706D6F635F,  -- _compare_idna_map
    0x70616D5F616E64695F746567,  -- get_idna_map
    0x73695F70616D,  -- map_is
    0x70616D5F637163666E5F657261706D6F635F,  -- _compare_nfcqc_map
    0x70616D5F637163666E5F746567,  -- get_nfcqc_map
    0x617461645F70616D5F746567,  -- get_map_data
    0x657261706D6F635F,  -- _compare
    0x79747265706F7270,  -- property
    0x705F6465776F6C6C617369645F326E64695F,  -- _idn2_disallowed_p
    0x705F6A747865746E6F635F326E64695F,  -- _idn2_contextj_p
    0x705F6F747865746E6F635F326E64695F,  -- _idn2_contexto_p
    0x705F64656E67697373616E755F326E64695F,  -- _idn2_unassigned_p
    0x656C75725F6A747865746E6F635F326E64695F,  -- _idn2_contextj_rule
    0x656D616E5F7470697263735F63755F,  -- _uc_script_name
    0x656C75725F6F747865746E6F635F326E64695F,  -- _idn2_contexto_rule
    0x656C75725F687469775F6F747865746E6F635F326E64695F  -- _idn2_contexto_with_rule
  ].map (bytes 200)) := by
  decide +kernel

/-- The names that the version script exports besides those of the header. -/
def notDeclared : List (List Nat) :=
  [str "idn2_decode_ul", str "_idn2_punycode_encode", str "_idn2_punycode_decode"]

/-- C115.  The functions of the header are exported, each once, and defined. -/
theorem C115_declared : (∀ f ∈ declared headerText, f ∈ exported mapText ∧ f ∈ defined definitionText) ∧
    (declared headerText).Nodup ∧ (exported mapText).Nodup := by
  rw [exported_eq, declared_eq, defined_eq]
  decide +kernel

/-- C115, the part that holds of the converse: what is exported is declared in the header, or one of the
two compatibility symbols, or `idn2_decode_ul`; and defined, unless it is the latter. -/
theorem C115_exported_partial : ∀ f ∈ exported mapText,
    (f ∈ declared headerText ↔ f ∉ notDeclared) ∧
    (f ∈ defined definitionText ↔ f ≠ str "idn2_decode_ul") := by
  rw [exported_eq, declared_eq, defined_eq]
  decide +kernel

/-- C115 is violated: the version script names a function that does not exist.  Linkers with
`--no-undefined-version` refuse it. -/
theorem C115_violated : str "idn2_decode_ul" ∈ exported mapText ∧
    str "idn2_decode_ul" ∉ declared headerText ∧ str "idn2_decode_ul" ∉ defined definitionText := by
  rw [exported_eq, declared_eq, defined_eq]
  decide +kernel

/-- C115.  Nothing else that the sources define is visible: the inner functions are local. -/
theorem C115_hidden : ∀ f ∈ defined definitionText, f ∈ exported mapText ↔
    f ∈ declared headerText ∨ f ∈ [str "_idn2_punycode_encode", str "_idn2_punycode_decode"] := by
  rw [exported_eq, declared_eq, defined_eq]
  decide +kernel

end Idn2
