import Verif.Spec.Codes
import Verif.Data.Laws
import Verif.Props.LookupExact
import Verif.Props.RegisterExact
import Verif.Props.UniCompose

/-
Property C91: which error codes lookup and registration return.
Property C92: to-unicode returns the error codes it is documented to return.
-/

namespace Idn2
open Spec

variable {D : Data} {U : Uni}

/-! ### The data of the repository -/

/-- No line of the file says CONTEXTJ or CONTEXTO of code points without rule. -/
def ruledCheck (csv : List CsvRow) : Bool :=
  csv.all fun r => match r.prop with
    | .contextj => decide (0x200C ≤ r.first ∧ r.last ≤ 0x200D)
    | .contexto => [(0xB7, 0xB7), (0x375, 0x375), (0x5F3, 0x5F4), (0x30FB, 0x30FB), (0x660, 0x669),
        (0x6F0, 0x6F9)].any fun (p : Nat × Nat) => decide (p.1 ≤ r.first ∧ r.last ≤ p.2)
    | _ => true

theorem ruled_of_check {csv : List CsvRow} {rows : List MapRow} {qc : List QcRow}
    (h : ruledCheck csv = true) : Ruled (dataOf csv rows qc) := by
  have key : ∀ c p, (dataOf csv rows qc).prop c = p → p ≠ .unassigned →
      ∃ r ∈ csv, r.prop = p ∧ r.first ≤ c ∧ c ≤ r.last := by
    intro c p hp hne
    simp only [dataOf] at hp
    split at hp
    · rename_i r hr
      have h1 := List.mem_of_find?_eq_some hr
      have h2 := List.find?_some hr
      simp only [decide_eq_true_eq] at h2
      exact ⟨r, h1, hp, h2⟩
    · exact absurd hp.symm hne
  unfold ruledCheck at h
  rw [List.all_eq_true] at h
  constructor
  · intro c hc
    obtain ⟨r, hr, hp, h1, h2⟩ := key c _ hc (by simp)
    have := h r hr
    rw [hp] at this
    simp only [decide_eq_true_eq] at this
    omega
  · intro c hc
    obtain ⟨r, hr, hp, h1, h2⟩ := key c _ hc (by simp)
    have := h r hr
    rw [hp] at this
    simp only [List.any_cons, List.any_nil, Bool.or_eq_true, decide_eq_true_eq, Bool.false_eq_true,
      or_false] at this
    unfold hasContextO
    omega

theorem Shipped.ruled : Ruled Shipped.D := ruled_of_check (by decide +kernel)

/-! ### Parts -/

theorem runs_listed {cap b : Nat} {s : Punycode.St} {o ds : List Nat} {r : Except Rc (List Nat)}
    (h : Punycode.Runs cap b s o ds r) : ∀ e, r = .error e → e ∈ punyCodes := by
  unfold punyCodes
  induction h with
  | done => rintro e ⟨⟩
  | number s o ds e' _ h =>
    rintro e ⟨⟩
    cases h <;> simp
  | large => rintro e ⟨⟩; simp
  | bad => rintro e ⟨⟩; simp
  | full => rintro e ⟨⟩; simp
  | step _ _ _ _ _ _ _ _ _ _ _ _ _ ih => exact ih

theorem decoding_listed {cap : Nat} {t : List Nat} {e : Rc}
    (h : Punycode.Decoding cap t (.error e)) : e ∈ punyCodes := by
  cases h with
  | empty | char | edge | full => simp [punyCodes]
  | delimited _ _ _ _ _ _ _ _ _ h => exact runs_listed h e rfl
  | plain _ _ _ _ h => exact runs_listed h e rfl

theorem tooLong_listed {v : List Nat} {e : Rc} (h : TooLong v e) : e ∈ punyCodes := by
  obtain ⟨_, rfl⟩ := h
  split <;> simp [punyCodes]

/-- Tests without CONTEXTO_RULE (bit 9) and CONTEXTO (bit 7). -/
theorem fault_listed (hR : Ruled D) {what : Nat} {l : List Nat} {e : Rc} (h : Fault D U what l e)
    (h7 : what.testBit 7 = false) (h9 : what.testBit 9 = false) (hd : 0x2E ∉ l) :
    e ∈ lookupCodes := by
  cases h with
  | contextoAny c h => rw [h7] at h; cases h
  | contexto _ c h => rw [h9] at h; cases h
  | contextjNoRule c _ _ h1 h2 h3 =>
    rcases hR.contextj c h1 with h | h
    · exact absurd h h2
    · exact absurd h h3
  | contextoNoRule c _ _ h1 h2 => exact absurd (hR.contexto c h1) h2
  | dotInLabel _ h => exact absurd h hd
  | _ => simp [lookupCodes, testCodes]

theorem regFault_listed (hR : Ruled D) {l : List Nat} {e : Rc} (h : Fault D U regTests l e) :
    e ∈ registerCodes := by
  cases h with
  | contextjNoRule c _ _ h1 h2 h3 =>
    rcases hR.contextj c h1 with h | h
    · exact absurd h h2
    · exact absurd h h3
  | contextoNoRule c _ _ h1 h2 => exact absurd (hR.contexto c h1) h2
  | dotInLabel h _ => revert h; decide
  | invalidTransitional _ h => revert h; decide
  | invalidNontransitional _ _ h => revert h; decide
  | _ => simp [registerCodes, testCodes]

theorem puny_lookup {e : Rc} (h : e ∈ punyCodes) : e ∈ lookupCodes := by
  unfold lookupCodes; simp [h]

theorem puny_register {e : Rc} (h : e ∈ punyCodes) : e ∈ registerCodes := by
  unfold registerCodes; simp [h]

theorem labelTests_bits (f : Nat) :
    (labelTests f).testBit 7 = false ∧ (labelTests f).testBit 9 = false := by
  unfold labelTests
  cases f.testBit 2 <;> cases f.testBit 5 <;> cases f.testBit 6 <;> decide

theorem tr46Tests_bits (f : Nat) :
    (tr46Tests f).testBit 7 = false ∧ (tr46Tests f).testBit 9 = false := by
  unfold tr46Tests
  cases f.testBit 2 <;> cases f.testBit 5 <;> decide

theorem tr46TestsA_bits (f : Nat) :
    (tr46TestsA f).testBit 7 = false ∧ (tr46TestsA f).testBit 9 = false := by
  unfold tr46TestsA
  cases f.testBit 5 <;> decide

/-- A decoded label contains no full stop. -/
theorem decodes_nodot {t u : List Nat} (h : Decodes t u) : 0x2E ∉ u := by
  intro hc
  have hm : (0x2E : Nat) ∈ Punycode.encode u := by
    rw [encode_eq_head, List.mem_append, headOf, List.mem_append]
    refine .inl (.inl ?_)
    unfold Punycode.basics
    simp [hc]
  rw [← h.canon] at hm
  exact canonPuny_dot h.chars hm

theorem labelErr_listed (hR : Ruled D) {f : Nat} {l : List Nat} {e : Rc} (hd : 0x2E ∉ l)
    (h : LabelErr D U f l e) : e ∈ lookupCodes := by
  obtain ⟨b7, b9⟩ := labelTests_bits f
  cases h with
  | undecodable _ _ _ h => obtain ⟨_, _, h⟩ := h; exact puny_lookup (decoding_listed h)
  | alabelFault t u _ _ _ h1 _ h => exact fault_listed hR h.fault b7 b9 (decodes_nodot h1)
  | ulabelFault _ _ h => exact fault_listed hR h.fault b7 b9 hd
  | ulabelLong _ _ _ h => exact puny_lookup (tooLong_listed h)
  | _ => simp [lookupCodes, testCodes, punyCodes]

theorem norm_nodot {E : Env} (W : World E D) {l v : List Nat} (h : Norm D E.U l v) (hd : 0x2E ∉ l) :
    0x2E ∉ v := by
  rcases h with ⟨_, rfl⟩ | ⟨_, h⟩
  · exact hd
  · exact W.uni.nfc_nosep _ _ _ (.inr rfl) hd h

theorem labelErrNfc_listed {E : Env} (W : World E D) (hR : Ruled D) {f : Nat} {l : List Nat} {e : Rc}
    (hd : 0x2E ∉ l) (h : LabelErrNfc D E.U f l e) : e ∈ lookupCodes := by
  obtain ⟨b7, b9⟩ := labelTests_bits f
  cases h with
  | undecodable _ _ _ h => obtain ⟨_, _, h⟩ := h; exact puny_lookup (decoding_listed h)
  | alabelFault t u v _ _ _ h1 _ h2 h =>
    exact fault_listed hR h.fault b7 b9 (norm_nodot W h2 (decodes_nodot h1))
  | ulabelFault v _ _ h1 h => exact fault_listed hR h.fault b7 b9 (norm_nodot W h1 hd)
  | alabelLong _ _ _ _ _ _ _ _ _ _ h => exact puny_lookup (tooLong_listed h)
  | ulabelLong _ _ _ _ _ h => exact puny_lookup (tooLong_listed h)
  | _ => simp [lookupCodes, testCodes, punyCodes]

theorem firstErr_listed {ok : List Nat → List Nat → Prop} {err : List Nat → Rc → Prop} {s : List Nat}
    {e : Rc} (h : FirstErr ok err (splitDot s) e) (he : ∀ l e, 0x2E ∉ l → err l e → e ∈ lookupCodes) :
    e ∈ lookupCodes := by
  obtain ⟨pre, l, post, ds, h1, _, _, h2 | ⟨_, _, rfl, _⟩⟩ := h
  · exact he l e (mem_splitDot_nodot (s := s) (h1 ▸ by simp)) h2
  · simp [lookupCodes]

theorem processErr_listed (hR : Ruled D) {f : Nat} {u : List Nat} {e : Rc}
    (h : ProcessErr D U f u e) : e ∈ lookupCodes := by
  cases h with
  | labels x _ _ _ _ h =>
    cases h with
    | stop _ _ _ _ _ h => obtain ⟨_, _, h⟩ := h; exact puny_lookup (decoding_listed h)
    | last _ _ l h1 _ h _ =>
      have hd : 0x2E ∉ l := mem_splitDot_nodot (s := x) (h1 ▸ by simp)
      cases h with
      | alabel t u _ h2 h =>
        obtain ⟨b7, b9⟩ := tr46TestsA_bits f
        exact fault_listed hR h.fault b7 b9 (decodes_nodot h2)
      | ulabel _ h =>
        obtain ⟨b7, b9⟩ := tr46Tests_bits f
        exact fault_listed hR h.fault b7 b9 hd
  | _ => simp [lookupCodes, testCodes]

/-- C91, lookup: these are the error codes it returns when memory suffices.  In particular it never
returns CONTEXTO, CONTEXTO_NO_RULE, CONTEXTJ_NO_RULE, DOT_IN_LABEL, INVALID_ALABEL or
UALABEL_MISMATCH. -/
theorem C91_lookup {E : Env} (W : World E D) (hR : Ruled D) {f : Nat} {s : List Nat} (h0 : 0 ∉ s)
    {e : Rc} (h : LookupErr E f s e) : e ∈ lookupCodes := by
  have h := (C64_lookup W f h0 (.error e)).mp h
  cases h with
  | conflict | malformed => simp [lookupCodes]
  | error u _ _ h6 _ _ h =>
    rcases h with ⟨_, h⟩ | ⟨x, _, h⟩
    · exact processErr_listed hR h
    · exact firstErr_listed h fun l e hd h => labelErr_listed hR hd h
  | label _ _ h6 h =>
    refine firstErr_listed h fun l e hd h => ?_
    rcases h with ⟨_, rfl⟩ | ⟨u, hu, rfl, h⟩
    · simp [lookupCodes]
    · have hd' : 0x2E ∉ u := fun h => hd ((mem_u8Encode_ascii (u8Encode_utf8s hu) (by omega)).mpr h)
      split at h
      · exact labelErrNfc_listed W hR hd' h
      · exact labelErr_listed hR hd' h

/-- C91, registration: these are the error codes it returns when memory suffices. -/
theorem C91_register {E : Env} (W : World E D) (hR : Ruled D) {f : Nat}
    {ul al : Option (List Nat)} {e : Rc} (h : RegErr E f ul al e) : e ∈ registerCodes := by
  cases al with
  | some a =>
    have h := (C66_register_alabel W f ul a (.error e)).mp h
    cases h with
    | undecodable _ _ _ _ _ _ h => exact puny_register (decoding_listed h)
    | fault _ _ _ _ _ _ _ _ h => exact regFault_listed hR h.fault
    | _ => simp [registerCodes]
  | none =>
    cases ul with
    | none => unfold RegErr idn2_register_u8 registerRec at h; simp [pure] at h
    | some t =>
      have h := (C65_register_ulabel W f t (.error e)).mp h
      cases h with
      | fault _ _ _ _ _ _ _ h => exact regFault_listed hR h.fault
      | tooLong _ _ _ _ _ _ _ _ h => exact puny_register (tooLong_listed h)
      | _ => simp [registerCodes, testCodes]

/-- C91 for the tables of the repository. -/
theorem C91_shipped {U : Uni} (h : U.Laws) :
    (∀ f s e, 0 ∉ s → LookupErr ⟨Shipped.T, U⟩ f s e → e ∈ lookupCodes) ∧
    ∀ f ul al e, RegErr ⟨Shipped.T, U⟩ f ul al e → e ∈ registerCodes :=
  ⟨fun _ _ _ h0 => C91_lookup (World.shipped h) Shipped.ruled h0,
    fun _ _ _ _ => C91_register (World.shipped h) Shipped.ruled⟩

/-- C92, what holds of to-unicode: for a name without "xn--" labels the error is one of those documented;
otherwise it may also be one of the Punycode decoder. -/
theorem C92_documented_partial {s : List Nat} {e : Rc} (h : ToUniErr s e) :
    e ∈ toUnicodeDocumented ∨ (e ∈ punyCodes ∧ ∃ l ∈ splitDot s, XnPrefix l) := by
  obtain ⟨pre, l, post, xs, h1, _, _, h | ⟨rfl, _⟩⟩ := (C49_first_error s e).mp h
  · cases h with
    | alabel hx h => exact .inr ⟨decoding_listed h, l, h1 ▸ by simp, hx⟩
    | plain _ h => left; cases h <;> simp [toUnicodeDocumented]
  · exact .inl (by simp [toUnicodeDocumented])

/-- C92 fails: "xn--" is refused with a code it does not
list. -/
theorem C92_violated :
    ∃ s e, ToUniErr s e ∧ e ∉ toUnicodeDocumented :=
  ⟨[0x78, 0x6E, 0x2D, 0x2D], .punycodeBadInput, by decide +kernel, by decide⟩

theorem Sample.ruled : Ruled Sample.D := ruled_of_check (by decide +kernel)

/-- Names, with flags, that lookup refuses with the codes of the list.  Left out are NFC, which
needs a normaliser that fails, and INVALID_TRANSITIONAL, which needs one that turns characters
UTS #46 allows into others. -/
def lookupWitnesses : List (Nat × List Nat × Rc) :=
  [(64, utf8s [0x61, 0x300], .notNfc),
    (0, [0x61, 0x62, 0x2D, 0x2D, 0x63], .twoHyphen),
    (0, [0x2D, 0xC3, 0xA4], .hyphenStartEnd),
    (64, [0xCC, 0x80], .leadingCombining),
    (0, utf8s [0x61, 0xFFFF], .disallowed),
    (64, utf8s [0x62, 0x200C], .contextj),
    (64, [0xC4, 0x82], .unassigned),
    (0, utf8s [0x5D0, 0x61], .bidi),
    (0, [0x78, 0x6E, 0x2D, 0x2D], .punycodeBadInput),
    (64, List.replicate 60 0x61 ++ [0xC3, 0xA4], .punycodeBigOutput),
    (64, [0x78, 0x6E, 0x2D, 0x2D] ++ List.replicate 8 0x39, .punycodeOverflow),
    (12, [0x61], .invalidFlags),
    (0, [0xC3], .encodingError),
    (64, (List.replicate 5 (List.replicate 59 0x61 ++ [0x2E])).flatten, .tooBigDomain),
    (64, List.replicate 64 0x61, .tooBigLabel),
    (32, [0x78, 0x6E, 0x2D, 0x2D, 0x61, 0x2D, 0x6C, 0x63, 0x61], .invalidNontransitional),
    (0, utf8s [0xA8], .alabelRoundtripFailed)]

example : lookupWitnesses.map (·.2.2) =
      lookupCodes.filter (fun e => e ≠ .nfc ∧ e ≠ .invalidTransitional) ∧
    (∀ w ∈ lookupWitnesses, LookupErr Sample.E w.1 w.2.1 w.2.2) := by decide +kernel

/-- The same for registration; a U-label and an A-label. -/
def registerWitnesses : List (Option (List Nat) × Option (List Nat) × Rc) :=
  [(some (utf8s [0x61, 0x300]), none, .notNfc),
    (some [0x61, 0x62, 0x2D, 0x2D, 0xC3, 0xA4], none, .twoHyphen),
    (some [0x2D, 0xC3, 0xA4], none, .hyphenStartEnd),
    (some [0xCC, 0x80], none, .leadingCombining),
    (some [0x5F, 0xC3, 0xA4], none, .disallowed),
    (some (utf8s [0x62, 0x200C]), none, .contextj),
    (some [0xC4, 0x82], none, .unassigned),
    (some (utf8s [0x5D0, 0x61]), none, .bidi),
    (none, some (acePrefix ++ [0x61, 0x2D]), .punycodeBadInput),
    (some (List.replicate 60 0x61 ++ [0xC3, 0xA4]), none, .punycodeBigOutput),
    (none, some (acePrefix ++ List.replicate 8 0x39), .punycodeOverflow),
    (some (utf8s [0x61, 0x375]), none, .contexto),
    (some [0xC3], none, .encodingError),
    (some (List.replicate 64 0x61), none, .tooBigLabel),
    (none, some [0x61], .invalidAlabel),
    (some [0x66], some (acePrefix ++ [0x66, 0x2D, 0x30, 0x66, 0x61]), .ualabelMismatch)]

/-- With U+0375, a CONTEXTO code point out of place, lookup has no problem. -/
example : registerWitnesses.map (·.2.2) = registerCodes.filter (fun e => e ≠ .nfc) ∧
    (∀ w ∈ registerWitnesses, RegErr Sample.E 0 w.1 w.2.1 w.2.2) ∧
    LookupOk Sample.E 0 (utf8s [0x61, 0x375])
      [0x78, 0x6E, 0x2D, 0x2D, 0x61, 0x2D, 0x6B, 0x69, 0x62] := by decide +kernel

/-- Names that to-unicode refuses. -/
example : ToUniErr (List.replicate 256 0x2E) .tooBigDomain ∧
    ToUniErr (List.replicate 64 0x61) .tooBigLabel ∧ ToUniErr [0x61, 0x2E, 0xC3] .encodingError ∧
    ToUniErr ([0x78, 0x6E, 0x2D, 0x2D] ++ List.replicate 64 0x61 ++ [0x2D, 0x61])
      .punycodeBigOutput ∧
    ToUniErr ([0x58, 0x6E, 0x2D, 0x2D] ++ List.replicate 8 0x39) .punycodeOverflow := by
  decide +kernel

end Idn2
