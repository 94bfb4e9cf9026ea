import Verif.Props.BidiName

/-
Property C88: A-labels in results, in any letter case, are genuine, so that every result can be shown.
-/

namespace Idn2
open Spec

variable {D : Data}

/-- The labels of a result in UTS #46 processing have no capital letters. -/
theorem result_lower {E : Env} (W : World E D) {f : Nat} (f6 : f.testBit 6 = false)
    (f7 : f.testBit 7 = false) {s n : List Nat} (h0 : 0 ∉ s) (h : LookupOk E f s n) {d : List Nat}
    (hd : d ∈ splitDot n) : ∀ c ∈ d, ¬ (0x41 ≤ c ∧ c ≤ 0x5A) := by
  intro c hc
  obtain ⟨h1, h2⟩ := result_chars W h0 f6 f7 h c (mem_of_mem_splitDot hd hc)
  exact (ascii_valid W.data h1 h2).2.2.1

/-- C88, for UTS #46 processing: a label of a result that begins with "xn--" in any letter case is the
A-label of a label that passes the tests. -/
theorem C88_genuine_partial {E : Env} (W : World E D) {f : Nat} (f6 : f.testBit 6 = false)
    (f7 : f.testBit 7 = false) {s n : List Nat} (h0 : 0 ∉ s) (h : LookupOk E f s n) {d : List Nat}
    (hd : d ∈ splitDot n) (hx : XnPrefix d) :
    ∃ u, d = xn ++ Punycode.encode u ∧ (∀ c ∈ u, isScalar c) ∧ (∃ c ∈ u, 0x80 ≤ c) ∧
      ∀ e, ¬ Fault D E.U (labelTests f) u e := by
  obtain ⟨t, rfl⟩ := xnPrefix_lower (result_lower W f6 f7 h0 h hd) hx
  obtain ⟨u, _, rfl, h1, h2, h3, _⟩ := C35_alabel_genuine W h0 f7 h hd
  exact ⟨u, rfl, h1, h2, h3⟩

/-- C88, for UTS #46 processing (transitional or not): every result can be shown. -/
theorem C88_shown_partial {E : Env} (W : World E D) {f : Nat} (f6 : f.testBit 6 = false)
    (f7 : f.testBit 7 = false) {s n : List Nat} (h0 : 0 ∉ s) (h : LookupOk E f s n) :
    ∃ v, ToUniOk n v := by
  have hlim := C07_lookup_limits W h0 h
  have key : ∀ d ∈ splitDot n, ∃ x, LabelFrom d x ∧ x.length ≤ d.length := by
    intro d hd
    by_cases hx : XnPrefix d
    · obtain ⟨t, rfl⟩ := xnPrefix_lower (result_lower W f6 f7 h0 h hd) hx
      obtain ⟨u, h1, rfl, h2, _⟩ := C35_alabel_genuine W h0 f7 h hd
      refine ⟨u, .alabel u hx (decodes_iff.mp h1), ?_⟩
      have := length_le_encode (scalar_lt h2)
      rw [List.length_append]
      omega
    · have hasc : ∀ c ∈ d, c < 0x80 := fun c hc => by
        have := C08_lookup_ascii W h0 h c (mem_of_mem_splitDot hd hc)
        omega
      exact ⟨d, .plain d hx (fun c hc => by have := hasc c hc; left; omega)
        (ascii_utf8s hasc).symm (hlim.1 d hd), Nat.le_refl _⟩
  have all : ∀ ds : List (List Nat), (∀ d ∈ ds, ∃ x, LabelFrom d x ∧ x.length ≤ d.length) →
      ∃ xs, Each LabelFrom ds xs ∧ Each (fun d x => x.length ≤ d.length) ds xs := by
    intro ds
    induction ds with
    | nil => exact fun _ => ⟨[], .nil, .nil⟩
    | cons d ds ih =>
      intro hds
      obtain ⟨x, h1, h2⟩ := hds d List.mem_cons_self
      obtain ⟨xs, h3, h4⟩ := ih fun d hd => hds d (List.mem_cons_of_mem _ hd)
      exact ⟨x :: xs, .cons h1 h3, .cons h2 h4⟩
  obtain ⟨xs, h1, h2⟩ := all _ key
  refine ⟨joinDot xs, (C49_to_unicode_spec _ _).mpr ⟨xs, h1, rfl, ?_⟩⟩
  have h3 := joinDot_length_le h2
  rw [joinDot_splitDot] at h3
  have := hlim.2.1
  omega

/-- C88 is violated with NO_TR46: the prefix is compared with regard to case there, so that "XN--A-"
passes as an ordinary ASCII label.  To-unicode disregards case, and refuses it. -/
theorem C88_violated :
    LookupOk Sample.E 64 [0x58, 0x4E, 0x2D, 0x2D, 0x41, 0x2D] [0x58, 0x4E, 0x2D, 0x2D, 0x41, 0x2D] ∧
    XnPrefix [0x58, 0x4E, 0x2D, 0x2D, 0x41, 0x2D] ∧
    ToUniErr [0x58, 0x4E, 0x2D, 0x2D, 0x41, 0x2D] .punycodeBadInput ∧
    LookupErr Sample.E 64 [0x78, 0x6E, 0x2D, 0x2D, 0x61, 0x2D] .punycodeBadInput := by
  decide +kernel

/-- C88, beside it: "XN--F-0FA.B" in transitional processing, and how the result is shown. -/
example : LookupOk Sample.E 4 [0x58, 0x4E, 0x2D, 0x2D, 0x46, 0x2D, 0x30, 0x46, 0x41, 0x2E, 0x42]
      [0x78, 0x6E, 0x2D, 0x2D, 0x66, 0x2D, 0x30, 0x66, 0x61, 0x2E, 0x62] ∧
    ToUniOk [0x78, 0x6E, 0x2D, 0x2D, 0x66, 0x2D, 0x30, 0x66, 0x61, 0x2E, 0x62]
      [0x66, 0xE4, 0x2E, 0x62] := by decide +kernel

end Idn2
