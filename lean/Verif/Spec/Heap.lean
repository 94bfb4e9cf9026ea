import Verif.Model.Decode
import Verif.Model.Register
import Verif.Spec.Laws

/-
What it means for a call of the library to be sound with respect to memory.
-/

namespace Idn2

/-- Heaps that can occur: block identities are distinct and have been handed out. -/
structure Heap.Ok (h : Heap) : Prop where
  nodup : h.live.Nodup
  lt : ∀ p ∈ h.live, p < h.count

namespace Spec

/-- The contents of an output parameter without the identity of the block. -/
def forget : Cell → Cell
  | .buf _ s => .buf 0 s
  | c => c

/-- The block that the caller has to free after a call that returned `rc` and left `o` in the
output parameter. -/
def owned (rc : Option Rc) (o : Option Cell) : List Nat :=
  match rc, o with
  | none, some (.buf p _) => [p]
  | _, _ => []

/-- One of the allocations made between the heaps `h` and `h'` failed. -/
def Failed (h h' : Heap) : Prop := ∃ k, h.count ≤ k ∧ k < h'.count ∧ h.fails k = true

/-- The calls with an input that is not null and an output parameter that may be: the call
over the heap and over unlimited memory.  (C strings contain no zero; that includes those
that come out of a conversion from the locale's encoding.) -/
inductive Call (E : Env) : (Option Cell → HeapM (Option Rc × Option Cell)) →
    (Option Cell → Out (Option Rc × Option Cell)) → Prop
  | lookup_u8 {s : List Nat} (h0 : 0 ∉ s) (flags : Nat) :
    Call E (fun out => idn2_lookup_u8 E (some s) out flags)
      (fun out => idn2_lookup_u8 E (some s) out flags)
  | lookup_ul {s : List Nat} (h0 : ∀ t, E.U.fromLocale s = some t → 0 ∉ t) (flags : Nat) :
    Call E (fun out => idn2_lookup_ul E (some s) out flags)
      (fun out => idn2_lookup_ul E (some s) out flags)
  | to_ascii_8z {s : List Nat} (h0 : 0 ∉ s) (flags : Nat) :
    Call E (fun out => idn2_to_ascii_8z E (some s) out flags)
      (fun out => idn2_to_ascii_8z E (some s) out flags)
  | to_ascii_lz {s : List Nat} (h0 : ∀ t, E.U.fromLocale s = some t → 0 ∉ t) (flags : Nat) :
    Call E (fun out => idn2_to_ascii_lz E (some s) out flags)
      (fun out => idn2_to_ascii_lz E (some s) out flags)
  | to_ascii_4z {a : List Nat} (h0 : 0 ∉ a) (flags : Nat) :
    Call E (fun out => idn2_to_ascii_4z E (some a) out flags)
      (fun out => idn2_to_ascii_4z E (some a) out flags)
  | to_ascii_4i2 (a : List Nat) (flags : Nat) :
    Call E (fun out => idn2_to_ascii_4i2 E (some a) out flags)
      (fun out => idn2_to_ascii_4i2 E (some a) out flags)
  | to_unicode_8z4z {s : List Nat} (h0 : 0 ∉ s) (flags : Nat) :
    Call E (fun out => idn2_to_unicode_8z4z (some s) out flags)
      (fun out => idn2_to_unicode_8z4z (some s) out flags)
  | to_unicode_4z4z {a : List Nat} (h0 : 0 ∉ a) (flags : Nat) :
    Call E (fun out => idn2_to_unicode_4z4z (some a) out flags)
      (fun out => idn2_to_unicode_4z4z (some a) out flags)
  | to_unicode_8z8z {s : List Nat} (h0 : 0 ∉ s) (flags : Nat) :
    Call E (fun out => idn2_to_unicode_8z8z (some s) out flags)
      (fun out => idn2_to_unicode_8z8z (some s) out flags)
  | to_unicode_8zlz {s : List Nat} (h0 : 0 ∉ s) (flags : Nat) :
    Call E (fun out => idn2_to_unicode_8zlz E (some s) out flags)
      (fun out => idn2_to_unicode_8zlz E (some s) out flags)
  | to_unicode_lzlz {s : List Nat} (h0 : ∀ t, E.U.fromLocale s = some t → 0 ∉ t) (flags : Nat) :
    Call E (fun out => idn2_to_unicode_lzlz E (some s) out flags)
      (fun out => idn2_to_unicode_lzlz E (some s) out flags)
  | register_u8 {ul al : Option (List Nat)} (h : ul ≠ none ∨ al ≠ none) (flags : Nat) :
    Call E (fun out => idn2_register_u8 E ul al out flags)
      (fun out => idn2_register_u8 E ul al out flags)
  | register_ul {ul al : Option (List Nat)} (h : ul ≠ none ∨ al ≠ none) (flags : Nat) :
    Call E (fun out => idn2_register_ul E ul al out flags)
      (fun out => idn2_register_ul E ul al out flags)

end Spec

end Idn2
