import Verif.Model.Error

/-
Property C43: error strings.  The return codes are a finite type; the theorems go through
all of them.
-/

namespace Idn2

/-- All return codes. -/
def Rc.all : List Rc :=
  [.malloc, .noCodeset, .iconvFail, .encodingError, .nfc, .punycodeBadInput, .punycodeBigOutput,
   .punycodeOverflow, .tooBigDomain, .tooBigLabel, .invalidAlabel, .ualabelMismatch, .invalidFlags,
   .notNfc, .twoHyphen, .hyphenStartEnd, .leadingCombining, .disallowed, .contextj,
   .contextjNoRule, .contexto, .contextoNoRule, .unassigned, .bidi, .dotInLabel,
   .invalidTransitional, .invalidNontransitional, .alabelRoundtripFailed]

theorem Rc.mem_all (e : Rc) : e ∈ Rc.all := by cases e <;> decide

theorem Rc.forall_iff {P : Rc → Prop} : (∀ e, P e) ↔ ∀ e ∈ Rc.all, P e :=
  ⟨fun h e _ => h e, fun h e => h e e.mem_all⟩

/-- Return codes including IDN2_OK. -/
def allRc : List (Option Rc) := none :: Rc.all.map some

theorem mem_allRc (e : Option Rc) : e ∈ allRc := by
  cases e with
  | none => exact List.mem_cons_self
  | some e => exact List.mem_cons_of_mem _ (List.mem_map_of_mem e.mem_all)

/-- Different return codes have different values, and each is one of the enumerators of the
header. -/
theorem C43_codes_distinct : (∀ a b, rcCode a = rcCode b → a = b) ∧
    ∀ e, ∃ name, (name, rcCode e) ∈ idn2_rc := by
  constructor
  · have : ∀ a ∈ allRc, ∀ b ∈ allRc, rcCode a = rcCode b → a = b := by decide +kernel
    exact fun a b => this a (mem_allRc a) b (mem_allRc b)
  · have : ∀ e ∈ allRc, ∃ p ∈ idn2_rc, p.2 = rcCode e := by decide +kernel
    intro e
    obtain ⟨⟨n, c⟩, hp, rfl⟩ := this e (mem_allRc e)
    exact ⟨n, hp⟩

example : rcCode (some .invalidFlags) = -209 ∧ rcCode none = 0 := by decide

/-- C43 is violated: `idn2_strerror (IDN2_INVALID_FLAGS)` is the text for unknown codes, and
`idn2_strerror_name (IDN2_NO_CODESET)` is not the name of that code. -/
theorem C43_violated :
    idn2_strerror Rc.invalidFlags.code = idn2_strerror (-1) ∧ idn2_strerror (-1) = "Unknown error" ∧
    idn2_strerror_name Rc.noCodeset.code = "IDN2_NO_NODESET" ∧
    ("IDN2_NO_CODESET", Rc.noCodeset.code) ∈ idn2_rc := by decide +kernel

/-- C43, partial: except for IDN2_INVALID_FLAGS every code has a description of its own, which
is not the one for unknown codes; every code has a name of its own, which except for
IDN2_NO_CODESET is its name in the header. -/
theorem C43_error_strings_partial :
    (∀ a b : Option Rc, idn2_strerror (rcCode a) = idn2_strerror (rcCode b) → a = b) ∧
    (∀ a : Option Rc, a ≠ some .invalidFlags → idn2_strerror (rcCode a) ≠ "Unknown error") ∧
    (∀ a b : Option Rc, idn2_strerror_name (rcCode a) = idn2_strerror_name (rcCode b) → a = b) ∧
    (∀ a : Option Rc, idn2_strerror_name (rcCode a) ≠ "IDN2_UNKNOWN") ∧
    (∀ a : Option Rc, a ≠ some .noCodeset → (idn2_strerror_name (rcCode a), rcCode a) ∈ idn2_rc) := by
  have h1 : ∀ a ∈ allRc, ∀ b ∈ allRc, idn2_strerror (rcCode a) = idn2_strerror (rcCode b) → a = b := by
    decide +kernel
  have h2 : ∀ a ∈ allRc, a ≠ some .invalidFlags → idn2_strerror (rcCode a) ≠ "Unknown error" := by
    decide +kernel
  have h3 : ∀ a ∈ allRc, ∀ b ∈ allRc,
      idn2_strerror_name (rcCode a) = idn2_strerror_name (rcCode b) → a = b := by decide +kernel
  have h4 : ∀ a ∈ allRc, idn2_strerror_name (rcCode a) ≠ "IDN2_UNKNOWN" := by decide +kernel
  have h5 : ∀ a ∈ allRc, a ≠ some .noCodeset →
      (idn2_strerror_name (rcCode a), rcCode a) ∈ idn2_rc := by decide +kernel
  exact ⟨fun a b => h1 a (mem_allRc a) b (mem_allRc b), fun a => h2 a (mem_allRc a),
    fun a b => h3 a (mem_allRc a) b (mem_allRc b), fun a => h4 a (mem_allRc a),
    fun a => h5 a (mem_allRc a)⟩

/-- Values that are not return codes get the texts for unknown codes. -/
theorem C43_unknown (rc : Int) (h : ∀ e, rcCode e ≠ rc) :
    idn2_strerror rc = "Unknown error" ∧ idn2_strerror_name rc = "IDN2_UNKNOWN" := by
  have h1 : ∀ l : List (Int × String), (∀ p ∈ l, ∃ e ∈ allRc, rcCode e = p.1) →
      l.lookup rc = none := by
    intro l hl
    rw [List.lookup_eq_none_iff]
    intro p hp
    obtain ⟨e, _, he⟩ := hl p hp
    have := h e
    rw [he] at this
    simp only [bne_iff_ne, ne_eq]
    exact fun hh => this hh.symm
  unfold idn2_strerror idn2_strerror_name
  rw [h1 _ (by decide +kernel), h1 _ (by decide +kernel)]
  exact ⟨rfl, rfl⟩

example : idn2_strerror 5 = "Unknown error" ∧ idn2_strerror (-205) = "domain name longer than 255 characters" := by
  decide +kernel

end Idn2
