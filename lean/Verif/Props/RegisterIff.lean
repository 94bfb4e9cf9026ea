import Verif.Props.Register
import Verif.Proof.ToAsciiP
import Verif.Props.NfcInput

/-
Properties C51 and C55: registration of a U-label, completely; the error codes of the Punycode
encoder.
-/

namespace Idn2
open Spec

/-- C55.  An error code of the encoder says what is wrong: a code point that cannot be encoded,
an RFC 3492 delta beyond 32 bits (or as many code points), an encoding longer than the space
given. -/
theorem C55_encode_error {phys cap : Nat} {u : List Nat} {e : Rc} (hp : cap ≤ phys)
    (h64 : cap < 18446744073709551616) (h : punycode_encode phys cap u = .err e) :
    (e = .punycodeOverflow ∧ (maxint < u.length ∨ ∃ d ∈ Punycode.allDeltas u, maxint < d)) ∨
    (e = .punycodeBadInput ∧ ¬ Punycode.Encodable u) ∨
    (e = .punycodeBigOutput ∧ cap < (Punycode.encode u).length) := by
  rcases punycode_encode_errors (u := u) hp h64 with h1 | ⟨e', h1, h2⟩
  · rw [h1.1] at h; cases h
  · rw [h] at h1; cases h1; exact h2

theorem deltas_short {u : List Nat} (henc : Punycode.Encodable u) (hna : ∃ c ∈ u, 0x80 ≤ c)
    (hu : u.length ≤ 3855) : ∀ d ∈ Punycode.allDeltas u, d ≤ maxint := by
  have h : punycode_decode 3855 3855 (Punycode.encode (u.map blank)) = .ok (u.map blank) := by
    apply decode_encode (Nat.le_refl _) (Nat.le_refl _)
    · intro c hc hlt
      obtain ⟨x, _, rfl⟩ := List.mem_map.mp hc
      unfold blank at hlt ⊢
      split
      · unfold isLDHU; omega
      · rename_i h; rw [if_neg h] at hlt; omega
    · intro c hc
      obtain ⟨x, hx, rfl⟩ := List.mem_map.mp hc
      have := henc x hx
      unfold blank
      split <;> omega
    · obtain ⟨c, hc, hge⟩ := hna
      refine ⟨c, List.mem_map.mpr ⟨c, hc, ?_⟩, hge⟩
      unfold blank; rw [if_neg (by omega)]
    · simpa using hu
  obtain ⟨bs, ds, d⟩ := punycode_decode_sound (by rw [maxint_def]; omega) h
  have hd := d.deltas
  unfold Punycode.allDeltas at hd ⊢
  rwa [insertions_blank, basics_blank] at hd

/-- C55.  For labels of at most 3855 code points that can be encoded the only error is lack of
space. -/
theorem C55_encode_space {phys cap : Nat} {u : List Nat} (hp : cap ≤ phys)
    (h64 : cap < 18446744073709551616) (henc : Punycode.Encodable u) (hna : ∃ c ∈ u, 0x80 ≤ c)
    (hu : u.length ≤ 3855) :
    punycode_encode phys cap u = if cap < (Punycode.encode u).length then .err .punycodeBigOutput
      else .ok (Punycode.encode u) := by
  by_cases hc : cap < (Punycode.encode u).length
  · rw [if_pos hc]
    rcases punycode_encode_errors (u := u) hp h64 with h1 | ⟨e', h1, h2⟩
    · omega
    · rw [h1]
      rcases h2 with ⟨_, h2⟩ | ⟨_, h2⟩ | ⟨rfl, _⟩
      · exfalso
        rcases h2 with h2 | ⟨d, hd, h2⟩
        · rw [maxint_def] at h2; omega
        · have := deltas_short henc hna hu d hd; omega
      · exact absurd henc h2
      · rfl
  · rw [if_neg hc]
    exact encode_ok_any hp h64 henc hna hu (by omega)

/-- Each of the three codes occurs. -/
example : punycode_encode 60 59 [0xD800] = .err .punycodeBadInput ∧
    punycode_encode 60 2 [0xFC] = .err .punycodeBigOutput ∧
    punycode_encode 60 3 [0xFC] = .ok [0x74, 0x64, 0x61] := by decide +kernel

/-! ### Errors of the decoder -/

theorem canonPuny_length (s : List Nat) : (canonPuny s).length = s.length := by
  induction s with
  | nil => rfl
  | cons c r ih =>
    unfold canonPuny
    split
    · simp [ih]
    · simp

theorem adapt_not_err (a b : Nat) (c : Bool) (e : Rc) : adapt a b c ≠ .err e := by
  unfold adapt
  simp only
  split
  · simp
  · split <;> split <;> simp

theorem decVarint_length {bias : Nat} : ∀ (l : List Nat) (i w k : Nat),
    decVarint bias l i w k ≠ .err .punycodeBigOutput ∧
    ∀ i' r, decVarint bias l i w k = .ok (i', r) → r.length < l.length := by
  intro l
  induction l with
  | nil => intro i w k; simp [decVarint]
  | cons c l ih =>
    intro i w k
    unfold decVarint
    simp only
    split
    · simp
    · split
      · simp
      · split
        · simp
        · split
          · refine ⟨by simp, fun i' r h => ?_⟩
            injection h with h
            injection h with _ h
            subst h
            simp
          · split
            · simp
            · refine ⟨(ih _ _ _).1, fun i' r h => ?_⟩
              have := (ih _ _ _).2 i' r h
              simp only [List.length_cons]
              omega

theorem decLoop_big {phys maxOut : Nat} : ∀ (fuel : Nat) (rest : List Nat) (n i bias : Nat)
    (out : List Nat), decLoop phys maxOut fuel rest n i bias out = .err .punycodeBigOutput →
    maxOut < out.length + rest.length := by
  intro fuel
  induction fuel with
  | zero =>
    intro rest n i bias out h
    cases rest <;> simp [decLoop] at h
  | succ fuel ih =>
    intro rest n i bias out h
    cases rest with
    | nil => simp [decLoop] at h
    | cons c rest =>
      unfold decLoop at h
      simp only at h
      obtain ⟨hv1, hv2⟩ := decVarint_length (bias := bias) (c :: rest) i 1 36
      cases hv : decVarint bias (c :: rest) i 1 36 with
      | ub => rw [hv] at h; cases h
      | err e => rw [hv] at h; injection h with h; subst h; exact absurd hv hv1
      | ok x =>
        obtain ⟨i', rest'⟩ := x
        have hlt := hv2 _ _ hv
        rw [hv] at h
        simp only at h
        cases ha : adapt (sub32 i' i) (u32 (out.length + 1)) (i == 0) with
        | ub => rw [ha] at h; cases h
        | err e => exact absurd ha (adapt_not_err _ _ _ _)
        | ok bias' =>
          rw [ha] at h
          simp only at h
          split at h
          · cases h
          · split at h
            · cases h
            · split at h
              · simp only [List.length_cons]; omega
              · split at h
                · rename_i hi
                  have := ih _ _ _ _ _ h
                  rw [List.length_insertIdx_of_le_length hi.2] at this
                  omega
                · cases h

/-- C55.  The decoder reports lack of space only if the string is longer than the space. -/
theorem C55_decode_space {phys cap : Nat} {s : List Nat} (h32 : cap ≤ maxint)
    (h : punycode_decode phys cap s = .err .punycodeBigOutput) : cap < s.length := by
  unfold punycode_decode at h
  split at h
  · cases h
  · cases hs : decScan s 0 0 with
    | none => rw [hs] at h; cases h
    | some b =>
      rw [hs] at h
      simp only at h
      rw [if_neg (show ¬ cap > maxint by omega)] at h
      split at h
      · rename_i hb
        have hb : b < s.length := by
          apply Classical.byContradiction
          intro hn
          rw [List.getElem?_eq_none (by omega)] at hb
          cases hb
        split at h
        · cases h
        · split at h
          · omega
          · split at h
            · have := decLoop_big _ _ _ _ _ _ h
              rw [List.length_take, List.length_drop] at this
              omega
            · cases h
      · have := decLoop_big _ _ _ _ _ _ h
        rw [List.length_drop] at this
        simp at this
        omega

/-- A string as long as the space can fill it; the decoder needs one place beyond the basic
characters. -/
example : punycode_decode 60 0 [0x74, 0x64, 0x61] = .err .punycodeBigOutput ∧
    punycode_decode 60 1 [0x61, 0x2D, 0x74, 0x64, 0x61] = .err .punycodeBigOutput ∧
    punycode_decode 60 2 [0x61, 0x2D, 0x74, 0x64, 0x61] ≠ .err .punycodeBigOutput := by
  decide +kernel

/-! ### C51 -/

theorem has_nfc (flags : Nat) : has flags IDN2_NFC_INPUT = flags.testBit 0 := (flag_bits flags).1

/-- C51.  Without NFC_INPUT a U-label is registered exactly when it is ASCII of at most 63
characters (and is then returned as it is), or is the UTF-8 form of a label that passes every
registration test and whose A-label has at most 63 characters. -/
theorem C51_register_ulabel {E : Env} {D : Data} (W : World E D) {flags : Nat}
    (hf : flags.testBit 0 = false) {s n : List Nat} :
    RegOk E flags (some s) none n ↔
      ((∀ c ∈ s, c < 0x80) ∧ s.length ≤ 63 ∧ n = s) ∨
      ∃ u, GoodLabel D E.U u ∧ s = utf8s u ∧ n = acePrefix ++ Punycode.encode u ∧
        n.length ≤ 63 := by
  rw [RegOk_ul]
  constructor
  · intro h
    rcases regUP_ok W h with h | ⟨q, p, hq, hna, hp, hs, hv, hn, henc⟩
    · exact Or.inl h
    · right
      rw [has_nfc, hf] at hp
      obtain ⟨hqs, rfl⟩ := u8Decode_some_iff.mp hq
      rw [u8nfcP_false E hqs] at hp
      injection hp with hp
      subst hp
      refine ⟨q, ⟨hs, hna, hv⟩, rfl, hn, ?_⟩
      have := ((C04_encode_correct _ _ (by omega) (by omega)).mp henc).2.2.2.2
      rw [hn]
      simp only [List.length_append, acePrefix, List.length_cons, List.length_nil]
      omega
  · rintro (⟨ha, hl, rfl⟩ | ⟨u, g, rfl, rfl, hl⟩)
    · unfold regUP
      rw [if_pos ((ascii_p_iff _).mpr ha), if_neg (by omega)]
    · apply regUP_good W g
      simp only [List.length_append, acePrefix, List.length_cons, List.length_nil] at hl
      omega

/-- C51.  With any flags a label that is already good is registered exactly when its A-label has
at most 63 characters. -/
theorem C51_register_good {E : Env} {D : Data} (W : World E D) {u : List Nat}
    (g : GoodLabel D E.U u) (flags : Nat) {n : List Nat} :
    RegOk E flags (some (utf8s u)) none n ↔
      n = acePrefix ++ Punycode.encode u ∧ n.length ≤ 63 := by
  rw [RegOk_ul]
  constructor
  · intro h
    rcases regUP_ok W h with ⟨ha, _⟩ | ⟨q, p, hq, hna, hp, hs, hv, hn, henc⟩
    · have := not_ascii_utf8s g.scalar g.nonascii
      rw [(ascii_p_iff _).mpr ha] at this
      cases this
    · rw [u8nfcP_stable W g.scalar (good_nfc g.valid)] at hp
      injection hp with hp
      subst hp
      refine ⟨hn, ?_⟩
      have := ((C04_encode_correct _ _ (by omega) (by omega)).mp henc).2.2.2.2
      rw [hn]
      simp only [List.length_append, acePrefix, List.length_cons, List.length_nil]
      omega
  · rintro ⟨rfl, hl⟩
    apply regUP_good W g
    simp only [List.length_append, acePrefix, List.length_cons, List.length_nil] at hl
    omega

theorem encode_ok_short {phys cap : Nat} {u : List Nat} (hp : cap ≤ phys) (hc : cap ≤ 3855)
    (henc : Punycode.Encodable u) (hcap : (Punycode.encode u).length ≤ cap) :
    punycode_encode phys cap u = .ok (Punycode.encode u) := by
  have hl : u.length ≤ (Punycode.encode u).length := length_le_encode fun c hc => by
    have := (henc c hc).1; omega
  by_cases hna : ∃ c ∈ u, 0x80 ≤ c
  · exact encode_ok_any hp (by omega) henc hna (by omega) hcap
  · refine (C04_encode_correct _ _ hp (by omega)).mpr
      ⟨rfl, by rw [maxint_def]; omega, henc, ?_, hcap⟩
    have : Punycode.insertions u = [] := Spec.Punycode.insertions_basic fun x hx => by
      apply Classical.byContradiction
      intro hge
      exact hna ⟨x, hx, by omega⟩
    unfold Punycode.allDeltas
    rw [this]
    simp [Punycode.deltas]

/-- C51.  With NFC_INPUT, for labels without supplementary characters (see C36): the label is
normalised first, and the tests are those of its normal form. -/
theorem C51_register_nfc {E : Env} {D : Data} (W : World E D) (hQ : QuickSound E.U D) {flags : Nat}
    (hf : flags.testBit 0 = true) {q n : List Nat} (hq : ∀ c ∈ q, isScalar c)
    (hb : ∀ c ∈ q, c < 0x10000) :
    RegOk E flags (some (utf8s q)) none n ↔
      ((∀ c ∈ q, c < 0x80) ∧ q.length ≤ 63 ∧ n = q) ∨
      ((∃ c ∈ q, 0x80 ≤ c) ∧ ∃ u, E.U.nfc q = some u ∧ (∀ e, ¬ Fault D E.U regTests u e) ∧
        n = acePrefix ++ Punycode.encode u ∧ n.length ≤ 63) := by
  rw [RegOk_ul]
  have hdec := u8Decode_some_iff.mpr ⟨hq, rfl⟩
  by_cases hna : ∃ c ∈ q, 0x80 ≤ c
  · have hnot : ¬ ∀ c ∈ q, c < 0x80 := by
      obtain ⟨c, hc, hge⟩ := hna
      intro h
      have := h c hc
      omega
    have hnasc := not_ascii_utf8s hq hna
    cases ht : E.U.nfc q with
    | none =>
      constructor
      · intro h
        exfalso
        rcases regUP_ok W h with ⟨ha, _⟩ | ⟨q', p, hq', _, hp, _, hv, _⟩
        · rw [(ascii_p_iff _).mpr ha] at hnasc; cases hnasc
        · rw [hdec] at hq'
          injection hq' with hq'
          subst hq'
          obtain ⟨_, q', hq', hx⟩ := (u8nfcP_spec W.tables W.uni _ _).2 p hp
          rw [hdec] at hq'
          injection hq' with hq'
          subst hq'
          rcases hx with rfl | ⟨_, hx⟩
          · rw [good_nfc hv] at ht; cases ht
          · rw [ht] at hx; cases hx
      · rintro (⟨h, _⟩ | ⟨_, u, hu, _⟩)
        · exact absurd h hnot
        · cases hu
    | some t =>
      have hnf := u8nfcP_nfc W hQ hq hb ht
      constructor
      · intro h
        rcases regUP_ok W h with ⟨ha, _⟩ | ⟨q', p, hq', _, hp, _, hv, hn, henc⟩
        · rw [(ascii_p_iff _).mpr ha] at hnasc; cases hnasc
        · rw [has_nfc, hf, hnf] at hp
          injection hp with hp
          subst hp
          refine Or.inr ⟨hna, t, rfl, hv, hn, ?_⟩
          have := ((C04_encode_correct _ _ (by omega) (by omega)).mp henc).2.2.2.2
          rw [hn]
          simp only [List.length_append, acePrefix, List.length_cons, List.length_nil]
          omega
      · rintro (⟨h, _⟩ | ⟨_, u, hu, hv, rfl, hl⟩)
        · exact absurd h hnot
        · injection hu with hu
          subst hu
          have hts := ((u8nfcP_spec W.tables W.uni _ _).2 t hnf).1
          unfold regUP
          rw [hnasc, has_nfc, hf, hnf]
          simp only [Bool.false_eq_true, ↓reduceIte, Res.bind_ok]
          rw [(labelTestP_ok_iff W.tables (fun c hc => isScalar_le (hts c hc)) _).mpr
            (by rw [registerMask_eq]; exact hv)]
          simp only [Res.bind_ok]
          simp only [List.length_append, acePrefix, List.length_cons, List.length_nil] at hl
          rw [encode_ok_short (by omega) (by omega) (encodable_scalar hts) (by omega)]
          rfl
  · have hasc : ∀ c ∈ q, c < 0x80 := by
      intro c hc
      apply Classical.byContradiction
      intro hge
      exact hna ⟨c, hc, by omega⟩
    have e1 := u8Decode_ascii hasc
    have e2 := (u8Decode_some_iff.mp e1).2
    rw [← e2]
    unfold regUP
    rw [if_pos ((ascii_p_iff _).mpr hasc)]
    constructor
    · intro h
      split at h
      · cases h
      · injection h with h
        exact Or.inl ⟨hasc, by omega, h.symm⟩
    · rintro (⟨_, h, rfl⟩ | ⟨h, _⟩)
      · rw [if_neg (by omega)]
      · exact absurd h hna

-- "fa" with a combining grave accent becomes "fà"; without the flag it is refused
example : RegOk Sample.E 1 (some (utf8s [0x66, 0x61, 0x300])) none (acePrefix ++ [0x66, 0x2D, 0x73, 0x66, 0x61]) ∧
    Sample.E.U.nfc [0x66, 0x61, 0x300] = some [0x66, 0xE0] ∧
    RegErr Sample.E 0 (some (utf8s [0x66, 0x61, 0x300])) none .notNfc ∧
    RegOk Sample.E 0 (some (utf8s [0x66, 0xE0])) none (acePrefix ++ [0x66, 0x2D, 0x73, 0x66, 0x61]) := by
  decide +kernel

/-- C51, errors.  Without NFC_INPUT, what the error code of a refused U-label says. -/
theorem C51_register_error {E : Env} {D : Data} (W : World E D) {flags : Nat}
    (hf : flags.testBit 0 = false) {s : List Nat} {e : Rc}
    (h : RegErr E flags (some s) none e) :
    ((∀ c ∈ s, c < 0x80) ∧ 63 < s.length ∧ e = .tooBigLabel) ∨
    ((∀ u, (∀ c ∈ u, isScalar c) → s ≠ utf8s u) ∧ e = .encodingError) ∨
    ∃ u, (∀ c ∈ u, isScalar c) ∧ (∃ c ∈ u, 0x80 ≤ c) ∧ s = utf8s u ∧
      ((Fault D E.U regTests u e ∧
          ∀ e', Fault D E.U regTests u e' → faultRank e ≤ faultRank e') ∨
        ((∀ e', ¬ Fault D E.U regTests u e') ∧ 63 < (acePrefix ++ Punycode.encode u).length ∧
          (e = .punycodeBigOutput ∨ (e = .punycodeOverflow ∧ 3855 < u.length)))) := by
  rw [RegErr_ul] at h
  unfold regUP at h
  split at h
  · rename_i ha
    rw [ascii_p_iff] at ha
    split at h
    · injection h with h
      exact Or.inl ⟨ha, by omega, h.symm⟩
    · cases h
  · rename_i ha
    rw [ascii_p_iff] at ha
    right
    rw [has_nfc, hf] at h
    cases hq : u8Decode s with
    | none =>
      left
      unfold u8nfcP at h
      rw [hq] at h
      refine ⟨fun u hu hs => ?_, by injection h with h; exact h.symm⟩
      rw [u8Decode_some_iff.mpr ⟨hu, hs⟩] at hq
      cases hq
    | some q =>
      right
      obtain ⟨hqs, rfl⟩ := u8Decode_some_iff.mp hq
      rw [u8nfcP_false E hqs, Res.bind_ok] at h
      have hna : ∃ c ∈ q, 0x80 ≤ c := by
        apply Classical.byContradiction
        intro hn
        apply ha
        have hq' : ∀ c ∈ q, c < 0x80 := by
          intro c hc
          apply Classical.byContradiction
          intro hge
          exact hn ⟨c, hc, by omega⟩
        have := u8Decode_ascii hq'
        obtain ⟨_, h2⟩ := u8Decode_some_iff.mp this
        rw [← h2]
        exact hq'
      refine ⟨q, hqs, hna, rfl, ?_⟩
      have hle : ∀ c ∈ q, c ≤ 0x10FFFF := fun c hc => isScalar_le (hqs c hc)
      have hr := rblk_label_test W.tables registerMask hle
      rw [registerMask_eq] at h hr
      cases ht : labelTestP E regTests q with
      | ub => rw [ht] at h; cases h
      | err e' =>
        rw [ht] at h
        injection h with h
        subst h
        exact Or.inl ⟨hr.1.err ht, hr.2.2 _ ht⟩
      | ok x =>
        rw [ht, Res.bind_ok] at h
        right
        have hv := (labelTestP_ok_iff W.tables hle regTests).mp ht
        have hE := encodable_scalar hqs
        cases hp : punycode_encode 60 59 q with
        | ok y => rw [hp] at h; cases h
        | ub => rw [hp] at h; cases h
        | err e' =>
          rw [hp] at h
          injection h with h
          subst h
          refine ⟨hv, ?_⟩
          by_cases h38 : q.length ≤ 3855
          · rw [C55_encode_space (by omega) (by omega) hE hna h38] at hp
            split at hp
            · injection hp with hp
              refine ⟨?_, Or.inl hp.symm⟩
              simp only [List.length_append, acePrefix, List.length_cons, List.length_nil]
              omega
            · cases hp
          · have hl := length_le_encode (scalar_lt hqs)
            refine ⟨?_, ?_⟩
            · simp only [List.length_append, acePrefix, List.length_cons, List.length_nil]
              omega
            · rcases C55_encode_error (by omega) (by omega) hp with ⟨h1, _⟩ | ⟨_, h1⟩ | ⟨h1, _⟩
              · exact Or.inr ⟨h1, by omega⟩
              · exact absurd hE h1
              · exact Or.inl h1

/-- C51, errors.  What the error code of a refused A-label says (with or without a U-label beside
it). -/
theorem C51_alabel_error {E : Env} {D : Data} (W : World E D) {flags : Nat}
    {ul : Option (List Nat)} {a : List Nat} {e : Rc} (h : RegErr E flags ul (some a) e) :
    (63 < a.length ∧ e = .tooBigLabel) ∨
    (a.length ≤ 63 ∧ e = .invalidAlabel ∧
      ¬ ∃ p, p ≠ [] ∧ a = acePrefix ++ p ∧ ∀ c ∈ p, c < 0x80) ∨
    ∃ p, a.length ≤ 63 ∧ a = acePrefix ++ p ∧
      (((e = .punycodeBadInput ∨ e = .punycodeOverflow) ∧ ¬ ∃ u, (∀ c ∈ p, isLDHU c) ∧ canonPuny p = Punycode.encode u ∧
          Punycode.Encodable u ∧ ∃ c ∈ u, 0x80 ≤ c) ∨
       ∃ u, (∃ c ∈ u, 0x80 ≤ c) ∧ canonPuny p = Punycode.encode u ∧
        ((e = .encodingError ∧ ¬ ∀ c ∈ u, isScalar c) ∨
          ((∀ c ∈ u, isScalar c) ∧
            ((e = .ualabelMismatch ∧ ∃ t, ul = some t ∧ t ≠ utf8s u) ∨
             ((ul = none ∨ ul = some (utf8s u)) ∧ Fault D E.U regTests u e ∧
                ∀ e', Fault D E.U regTests u e' → faultRank e ≤ faultRank e') ∨
             ((ul = none ∨ ul = some (utf8s u)) ∧ (∀ e', ¬ Fault D E.U regTests u e') ∧
                p ≠ Punycode.encode u ∧ e = .ualabelMismatch))))) := by
  rw [RegErr_al] at h
  unfold regAP at h
  by_cases h1 : a.length > 63
  · rw [if_pos h1] at h; injection h with h; exact Or.inl ⟨h1, h.symm⟩
  right
  rw [if_neg h1] at h
  by_cases h2 : a.length ≤ 4
  · rw [if_pos h2] at h
    injection h with h
    refine Or.inl ⟨by omega, h.symm, ?_⟩
    rintro ⟨p, hp, rfl, _⟩
    cases p with
    | nil => exact hp rfl
    | cons x p => simp [acePrefix] at h2
  rw [if_neg h2] at h
  by_cases h3 : a.take 4 ≠ acePrefix
  · rw [if_pos h3] at h
    injection h with h
    refine Or.inl ⟨by omega, h.symm, ?_⟩
    rintro ⟨p, hp, rfl, _⟩
    exact h3 rfl
  rw [if_neg h3] at h
  have h3 : a.take 4 = acePrefix := Classical.byContradiction h3
  have ha : a = acePrefix ++ a.drop 4 := by rw [← h3, List.take_append_drop]
  split at h
  · rename_i hb
    injection h with h
    refine Or.inl ⟨by omega, h.symm, ?_⟩
    rintro ⟨p, hp, hap, hpa⟩
    have : ascii_p a = true := by
      rw [ascii_p_iff, hap]
      intro c hc
      rcases List.mem_append.mp hc with hc | hc
      · simp [acePrefix] at hc; omega
      · exact hpa c hc
    rw [this] at hb
    cases hb
  · right
    refine ⟨a.drop 4, by omega, ha, ?_⟩
    have hlen : (a.drop 4).length ≤ 59 := by rw [List.length_drop]; omega
    cases hd : punycode_decode 1020 252 (a.drop 4) with
    | ub => rw [hd] at h; cases h
    | err e' =>
      rw [hd] at h
      injection h with h
      subst h
      refine Or.inl ⟨?_, ?_⟩
      · rcases punycode_decode_errs _ _ _ _ hd with g | g | g
        · exact Or.inl g
        · subst g
          have := C55_decode_space (by rw [maxint_def]; omega) hd
          omega
        · exact Or.inr g
      rintro ⟨u, g1, g2, g3, g4⟩
      have hl : u.length ≤ (Punycode.encode u).length := length_le_encode fun c hc => by
        have := (g3 c hc).1; omega
      rw [← g2, canonPuny_length] at hl
      rw [(decode_iff (by omega) (by omega)).mpr ⟨g1, g2, g3, g4, by omega⟩] at hd
      cases hd
    | ok u =>
      right
      obtain ⟨_, hcan, henc, hna, hlu⟩ := (decode_iff (by omega) (by omega)).mp hd
      refine ⟨u, hna, hcan, ?_⟩
      rw [hd, Res.bind_ok] at h
      cases hu : u8Encode u with
      | none =>
        rw [hu] at h
        injection h with h
        left
        refine ⟨h.symm, fun hs => ?_⟩
        rw [u8Encode_utf8s hs] at hu
        cases hu
      | some s =>
        rw [hu] at h
        simp only at h
        obtain ⟨hsc, rfl⟩ := u8Encode_some_iff.mp hu
        right
        refine ⟨hsc, ?_⟩
        split at h
        · rename_i hul
          injection h with h
          left
          refine ⟨h.symm, ?_⟩
          cases ul with
          | none => cases hul
          | some t => exact ⟨t, rfl, by simpa using hul⟩
        · rename_i hul
          right
          have hul : ul = none ∨ ul = some (utf8s u) := by
            cases ul with
            | none => left; rfl
            | some x => right; simpa using hul
          cases hr : regUP E (utf8s u) 0 with
          | ub => rw [hr] at h; cases h
          | err e' =>
            rw [hr] at h
            injection h with h
            subst h
            left
            have hr' : RegErr E 0 (some (utf8s u)) none e' := RegErr_ul.mpr hr
            rcases C51_register_error W (by decide) hr' with ⟨g1, _⟩ | ⟨g1, _⟩ |
              ⟨v, gs, gn, ge, gf⟩
            · have := not_ascii_utf8s hsc hna
              rw [(ascii_p_iff _).mpr g1] at this
              cases this
            · exact absurd rfl (g1 u hsc)
            · have : u = v := by
                have e1 := u8Decode_some_iff.mpr ⟨gs, ge⟩
                rw [u8Decode_some_iff.mpr ⟨hsc, rfl⟩] at e1
                injection e1
              subst this
              rcases gf with gf | ⟨_, gl, _⟩
              · exact ⟨hul, gf⟩
              · exfalso
                rw [← hcan, List.length_append, canonPuny_length] at gl
                simp only [acePrefix, List.length_cons, List.length_nil] at gl
                omega
          | ok t =>
            rw [hr, Res.bind_ok] at h
            right
            have hr' : RegOk E 0 (some (utf8s u)) none t := RegOk_ul.mpr hr
            rcases (C51_register_ulabel W (by decide)).mp hr' with ⟨g1, _⟩ | ⟨v, g, ge, gt, gl⟩
            · have := not_ascii_utf8s hsc hna
              rw [(ascii_p_iff _).mpr g1] at this
              cases this
            · have : u = v := by
                have e1 := u8Decode_some_iff.mpr ⟨g.scalar, ge⟩
                rw [u8Decode_some_iff.mpr ⟨hsc, rfl⟩] at e1
                injection e1
              subst this
              split at h
              · rename_i hne
                injection h with h
                refine ⟨hul, g.valid, fun hp => hne ?_, h.symm⟩
                rw [gt, ← hp]
                exact ha
              · cases h

/-- One example for each clause of `C51_register_error` and `C51_alabel_error`. -/
example :
    RegErr Sample.E 0 (some (List.replicate 64 0x61)) none .tooBigLabel ∧
    RegErr Sample.E 0 (some [0xC3]) none .encodingError ∧
    -- "-ä" starts with a hyphen and its last character is unassigned in the sample
    RegErr Sample.E 0 (some [0x2D, 0xC4, 0x82]) none .hyphenStartEnd ∧
    RegErr Sample.E 0 (some (List.replicate 60 0x61 ++ [0xC3, 0xA4])) none .punycodeBigOutput ∧
    RegErr Sample.E 0 none (some (acePrefix ++ List.replicate 60 0x61)) .tooBigLabel ∧
    RegErr Sample.E 0 none (some acePrefix) .invalidAlabel ∧
    -- "xn--a-" and "xn--99999999"
    RegErr Sample.E 0 none (some (acePrefix ++ [0x61, 0x2D])) .punycodeBadInput ∧
    RegErr Sample.E 0 none (some (acePrefix ++ List.replicate 8 0x39)) .punycodeOverflow ∧
    RegErr Sample.E 0 (some [0x66]) (some (acePrefix ++ [0x66, 0x2D, 0x30, 0x66, 0x61]))
      .ualabelMismatch ∧
    RegErr Sample.E 0 none (some (acePrefix ++ [0x66, 0x2D, 0x30, 0x46, 0x61]))
      .ualabelMismatch := by decide +kernel

end Idn2
