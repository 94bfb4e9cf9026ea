import Verif.Proof.LabelP

/-
Which error codes the parts of lookup can return.
-/

namespace Idn2
open Spec

/-- Every error of `x` satisfies `S`. -/
def Errs {α : Type} (x : Res α) (S : Rc → Prop) : Prop := ∀ e, x = .err e → S e

theorem Errs.ok {α : Type} {a : α} {S : Rc → Prop} : Errs (.ok a) S := fun _ h => by cases h
theorem Errs.ub {α : Type} {S : Rc → Prop} : Errs (.ub : Res α) S := fun _ h => by cases h
theorem Errs.err {α : Type} {e : Rc} {S : Rc → Prop} (h : S e) : Errs (.err e : Res α) S :=
  fun _ h' => by injection h' with h'; exact h' ▸ h

theorem Errs.bind {α β : Type} {x : Res α} {f : α → Res β} {S : Rc → Prop} (h1 : Errs x S)
    (h2 : ∀ a, Errs (f a) S) : Errs (x >>= f) S := by
  cases x with
  | ok a => exact h2 a
  | err e => exact Errs.err (h1 e rfl)
  | ub => exact Errs.ub

/-- The error codes of the Punycode coders. -/
def punyErr (e : Rc) : Prop :=
  e = .punycodeBadInput ∨ e = .punycodeBigOutput ∨ e = .punycodeOverflow

theorem adapt_errs (a b : Nat) (c : Bool) : Errs (adapt a b c) punyErr := by
  unfold adapt
  split
  · exact Errs.ub
  · simp only
    generalize (if c = true then a / 700 else a / 2) = d
    split
    · exact Errs.ub
    · exact Errs.ok

theorem push_errs (phys : Nat) (o : List Nat) (c : Nat) : Errs (push phys o c) punyErr := by
  unfold push; split
  · exact Errs.ok
  · exact Errs.ub

theorem encVarint_errs (phys maxOut bias q k : Nat) (o : List Nat) :
    Errs (encVarint phys maxOut bias q k o) punyErr := by
  generalize hn : q = n
  induction n using Nat.strongRecOn generalizing q k o with
  | _ n ih =>
    subst hn
    rw [encVarint.eq_def]
    split
    · exact Errs.err (Or.inr (Or.inl rfl))
    · simp only
      split
      · exact push_errs _ _ _
      · split
        · have h := threshold_bounds k bias
          have h1 : (q - threshold k bias) / (36 - threshold k bias) ≤ q - threshold k bias :=
            Nat.div_le_self _ _
          exact ih _ (by omega) _ _ _ rfl
        · rename_i e he; exact Errs.err (push_errs _ _ _ e he)
        · exact Errs.ub

theorem encPass_errs (phys maxOut n b : Nat) (l : List Nat) (st : EncSt) :
    Errs (encPass phys maxOut n b l st) punyErr := by
  induction l generalizing st with
  | nil => exact Errs.ok
  | cons x l ih =>
    simp only [encPass]
    generalize (if x < n then u32 (st.delta + 1) else st.delta) = d
    split
    · exact Errs.err (Or.inr (Or.inr rfl))
    · split
      · split
        · rename_i e he; exact Errs.err (encVarint_errs _ _ _ _ _ _ e he)
        · exact Errs.ub
        · split
          · rename_i e he; exact Errs.err (adapt_errs _ _ _ e he)
          · exact Errs.ub
          · exact ih _
      · exact ih _

theorem encLoop_errs (phys maxOut b : Nat) (input : List Nat) (fuel n : Nat) (st : EncSt) :
    Errs (encLoop phys maxOut b input fuel n st) punyErr := by
  induction fuel generalizing n st with
  | zero =>
    unfold encLoop
    split
    · exact Errs.ub
    · exact Errs.ok
  | succ fuel ih =>
    unfold encLoop
    split
    · simp only
      split
      · exact Errs.ub
      · split
        · exact Errs.err (Or.inr (Or.inr rfl))
        · split
          · rename_i e he; exact Errs.err (encPass_errs _ _ _ _ _ _ e he)
          · exact Errs.ub
          · exact ih _ _
    · exact Errs.ok

theorem encBasics_errs (phys maxOut : Nat) (l o : List Nat) :
    Errs (encBasics phys maxOut l o) punyErr := by
  induction l generalizing o with
  | nil => exact Errs.ok
  | cons x l ih =>
    simp only [encBasics]
    split
    · split
      · exact Errs.err (Or.inr (Or.inl rfl))
      · split
        · exact ih _
        · rename_i e he; exact Errs.err (push_errs _ _ _ e he)
        · exact Errs.ub
    · split
      · exact Errs.err (Or.inl rfl)
      · exact ih _

theorem punycode_encode_errs (phys maxOut : Nat) (u : List Nat) :
    Errs (punycode_encode phys maxOut u) punyErr := by
  unfold punycode_encode
  split
  · exact Errs.err (Or.inr (Or.inr rfl))
  · split
    · rename_i e he; exact Errs.err (encBasics_errs _ _ _ _ e he)
    · exact Errs.ub
    · simp only
      split
      · rename_i e he
        split at he
        · exact Errs.err (push_errs _ _ _ e he)
        · cases he
      · exact Errs.ub
      · exact encLoop_errs _ _ _ _ _ _ _

theorem decVarint_errs (bias : Nat) (l : List Nat) (i w k : Nat) :
    Errs (decVarint bias l i w k) punyErr := by
  induction l generalizing i w k with
  | nil => exact Errs.err (Or.inl rfl)
  | cons c l ih =>
    simp only [decVarint]
    split
    · exact Errs.err (Or.inl rfl)
    · split
      · exact Errs.ub
      · split
        · exact Errs.err (Or.inr (Or.inr rfl))
        · split
          · exact Errs.ok
          · split
            · exact Errs.err (Or.inr (Or.inr rfl))
            · exact ih _ _ _

theorem decLoop_errs (phys maxOut fuel : Nat) (rest : List Nat) (n i bias : Nat) (out : List Nat) :
    Errs (decLoop phys maxOut fuel rest n i bias out) punyErr := by
  induction fuel generalizing rest n i bias out with
  | zero =>
    unfold decLoop
    split
    · exact Errs.ok
    · exact Errs.ub
  | succ fuel ih =>
    unfold decLoop
    split
    · exact Errs.ok
    · simp only
      split
      · rename_i e he; exact Errs.err (decVarint_errs _ _ _ _ _ e he)
      · exact Errs.ub
      · split
        · rename_i e he; exact Errs.err (adapt_errs _ _ _ e he)
        · exact Errs.ub
        · split
          · exact Errs.err (Or.inr (Or.inr rfl))
          · split
            · exact Errs.err (Or.inl rfl)
            · split
              · exact Errs.err (Or.inr (Or.inl rfl))
              · split
                · exact ih _ _ _ _ _
                · exact Errs.ub

theorem punycode_decode_errs (phys cap : Nat) (s : List Nat) :
    Errs (punycode_decode phys cap s) punyErr := by
  unfold punycode_decode
  split
  · exact Errs.err (Or.inl rfl)
  · split
    · exact Errs.err (Or.inl rfl)
    · simp only
      generalize (if cap > maxint then maxint else cap) = mo
      split
      · split
        · exact Errs.err (Or.inl rfl)
        · split
          · exact Errs.err (Or.inr (Or.inl rfl))
          · split
            · exact decLoop_errs _ _ _ _ _ _ _ _
            · exact Errs.ub
      · exact decLoop_errs _ _ _ _ _ _ _ _

/-- The error codes of the label tests. -/
def testErr (e : Rc) : Prop :=
  e = .nfc ∨ e = .notNfc ∨ e = .twoHyphen ∨ e = .hyphenStartEnd ∨ e = .leadingCombining ∨
  e = .disallowed ∨ e = .contextj ∨ e = .contextjNoRule ∨ e = .contexto ∨ e = .contextoNoRule ∨
  e = .unassigned ∨ e = .bidi ∨ e = .dotInLabel ∨ e = .invalidTransitional ∨
  e = .invalidNontransitional

theorem fault_testErr {D : Data} {U : Uni} {what : Nat} {l : List Nat} {e : Rc}
    (h : Fault D U what l e) : testErr e := by
  unfold testErr
  cases h <;> simp

theorem labelTestP_errs {E : Env} {D : Data} (hI : Implements E.T D) {p : List Nat}
    (hp : ∀ c ∈ p, c ≤ 0x10FFFF) (what : Nat) : Errs (labelTestP E what p) testErr := by
  intro e he
  rcases blk_label_test hI what hp with ⟨h, _⟩ | ⟨e', h, h'⟩
  · rw [h] at he; cases he
  · rw [h] at he; injection he with he; exact he ▸ fault_testErr h'

/-- The error codes lookup returns after the flags have been accepted and memory has not
run out. -/
def convErr (e : Rc) : Prop :=
  punyErr e ∨ testErr e ∨ e = .encodingError ∨ e = .tooBigLabel ∨ e = .tooBigDomain ∨
    e = .alabelRoundtripFailed

theorem labelFinish_errs {rt : Option (List Nat)} {p : List Nat} {flags : Nat}
    (h0 : ∀ s, rt = some s → 0 ∉ s) : Errs (labelFinish rt p flags) convErr := by
  unfold labelFinish
  refine Errs.bind (fun e he => Or.inl (punycode_encode_errs _ _ _ e he)) (fun enc => ?_)
  have hr : convErr .alabelRoundtripFailed := Or.inr (Or.inr (Or.inr (Or.inr (Or.inr rfl))))
  cases rt with
  | none =>
    simp only
    split
    · exact Errs.ok
    · split
      · exact Errs.ub
      · exact Errs.err hr
      · split
        · exact Errs.err hr
        · exact Errs.ok
  | some s =>
    simp only
    split
    · exact Errs.err hr
    · rename_i hl
      rw [c_strncasecmp_spec (h0 s rfl) (Decidable.of_not_not hl), Res.bind_ok]
      split
      · exact Errs.ok
      · exact Errs.err hr

theorem u8nfcP_errs {E : Env} {D : Data} (hI : Implements E.T D) (src : List Nat) (nfc : Bool) :
    Errs (u8nfcP E src nfc) convErr := by
  unfold u8nfcP
  cases hq : u8Decode src with
  | none => exact Errs.err (Or.inr (Or.inr (Or.inl rfl)))
  | some q =>
    simp only
    split
    · obtain ⟨v, hv⟩ := isNFC_ne_ub hI (fun c hc => isScalar_le (u8Decode_isScalar hq c hc))
      rw [hv, Res.bind_ok]
      split
      · cases E.U.nfc q with
        | none => exact Errs.err (Or.inr (Or.inl (Or.inl rfl)))
        | some t => exact Errs.ok
      · exact Errs.ok
    · exact Errs.ok

theorem labelConvertP_errs {E : Env} {D : Data} (hI : Implements E.T D) (hU : E.U.Laws)
    {src : List Nat} {rt : Option (List Nat)} {flags : Nat} (h0 : ∀ s, rt = some s → 0 ∉ s) :
    Errs (labelConvertP E src rt flags) convErr := by
  unfold labelConvertP
  cases hp : u8nfcP E src (has flags IDN2_NFC_INPUT) with
  | ub => exact Errs.ub
  | err e => exact Errs.err (u8nfcP_errs hI _ _ e hp)
  | ok p =>
    rw [Res.bind_ok]
    have hs := ((u8nfcP_spec hI hU _ _).2 p hp).1
    refine Errs.bind ?_ (fun _ => labelFinish_errs h0)
    unfold labelTestIf
    split
    · exact Errs.ok
    · exact fun e he => Or.inr (Or.inl (labelTestP_errs hI (fun c hc => isScalar_le (hs c hc)) _ e he))

theorem labelP_errs {E : Env} {D : Data} (hI : Implements E.T D) (hU : E.U.Laws)
    {src : List Nat} (h0 : 0 ∉ src) (flags : Nat) : Errs (labelP E src flags) convErr := by
  unfold labelP
  split
  · split
    · refine Errs.bind (fun e he => Or.inl (punycode_decode_errs _ _ _ e he)) (fun u => ?_)
      cases u8Encode u with
      | none => exact Errs.err (Or.inr (Or.inr (Or.inl rfl)))
      | some s =>
        exact labelConvertP_errs hI hU (by intro s hs; injection hs with hs; subst hs; exact h0)
    · split
      · exact Errs.err (Or.inr (Or.inr (Or.inr (Or.inl rfl))))
      · exact Errs.ok
  · exact labelConvertP_errs hI hU (by intro s hs; cases hs)

theorem loopL_errs {E : Env} {flags : Nat} {ls : List (List Nat)} {name : List Nat} {e : Rc}
    (h : loopL E flags ls name = .err e) :
    e = .tooBigDomain ∨ ∃ l ∈ ls, labelP E l flags = .err e := by
  induction ls generalizing name with
  | nil => cases h
  | cons l ls ih =>
    by_cases hls : ls = []
    · subst hls
      simp only [loopL] at h
      cases hd : labelP E l flags with
      | ub => rw [hd] at h; cases h
      | err e' =>
        rw [hd] at h
        injection h with h
        exact Or.inr ⟨l, List.mem_cons_self, by rw [hd, h]⟩
      | ok d =>
        rw [hd, Res.bind_ok] at h
        by_cases hc : name.length + d.length > 255 - (if d.length = 0 then 1 else 2)
        · rw [if_pos hc] at h; injection h with h; exact Or.inl h.symm
        · rw [if_neg hc] at h; cases h
    · rw [loopL_cons hls] at h
      cases hd : labelP E l flags with
      | ub => rw [hd] at h; cases h
      | err e' =>
        rw [hd] at h
        injection h with h
        exact Or.inr ⟨l, List.mem_cons_self, by rw [hd, h]⟩
      | ok d =>
        rw [hd, Res.bind_ok] at h
        split at h
        · injection h with h; exact Or.inl h.symm
        · rcases ih h with h | ⟨x, hx, h⟩
          · exact Or.inl h
          · exact Or.inr ⟨x, List.mem_cons_of_mem _ hx, h⟩

theorem asOpt_errs (x : Res Unit) (S : Rc → Prop) : Errs (asOpt x) S := by
  cases x
  · exact Errs.ok
  · exact Errs.ok
  · exact Errs.ub

/-- The code recorded by the label test of `_tr46`. -/
theorem tr46LabelP_codes {E : Env} {D : Data} (hI : Implements E.T D) {lbl : List Nat}
    (hs : ∀ c ∈ lbl, isScalar c) (flags : Nat) :
    Errs (tr46LabelP E flags lbl) convErr ∧
      ∀ e, tr46LabelP E flags lbl = .ok (some e) → testErr e := by
  have key : ∀ what p, (∀ c ∈ p, c ≤ 0x10FFFF) → ∀ e, asOpt (labelTestP E what p) = .ok (some e) →
      testErr e := by
    intro what p hp e he
    cases h : labelTestP E what p with
    | ok _ => rw [h] at he; cases he
    | ub => rw [h] at he; cases he
    | err e' =>
      rw [h] at he
      injection he with he
      injection he with he
      exact he ▸ labelTestP_errs hI hp what e' h
  unfold tr46LabelP
  split
  · cases u8Encode (lbl.drop 4) with
    | none => exact ⟨Errs.err (Or.inr (Or.inr (Or.inl rfl))), fun e h => by cases h⟩
    | some a =>
      simp only
      refine ⟨Errs.bind (fun e he => Or.inl (punycode_decode_errs _ _ _ e he))
        (fun u => asOpt_errs _ _), fun e h => ?_⟩
      obtain ⟨u, hd, h⟩ := Res.bind_eq_ok.mp h
      refine key _ u ?_ e h
      intro c hc
      rcases (C05_decode_output (by omega) hd).1 c hc with h | h
      · have := h.1; unfold isLDHU at this; omega
      · omega
  · exact ⟨asOpt_errs _ _, key _ _ (fun c hc => isScalar_le (hs c hc))⟩

theorem tr46LabelsP_codes {E : Env} {D : Data} (hI : Implements E.T D) {ls : List (List Nat)}
    (hs : ∀ l ∈ ls, ∀ c ∈ l, isScalar c) (flags : Nat) (err : Option Rc)
    (herr : ∀ e, err = some e → testErr e) :
    Errs (tr46LabelsP E flags ls err) convErr ∧
      ∀ e, tr46LabelsP E flags ls err = .ok (some e) → testErr e := by
  induction ls generalizing err with
  | nil =>
    exact ⟨Errs.ok, fun e h => herr e (by simpa [tr46LabelsP] using h)⟩
  | cons l ls ih =>
    obtain ⟨c1, c2⟩ := tr46LabelP_codes hI (hs l List.mem_cons_self) flags
    simp only [tr46LabelsP]
    cases h : tr46LabelP E flags l with
    | ub => exact ⟨Errs.ub, fun e h => by cases h⟩
    | err e => exact ⟨Errs.err (c1 e h), fun e h => by cases h⟩
    | ok rc =>
      rw [Res.bind_ok]
      refine ih (fun x hx => hs x (List.mem_cons_of_mem _ hx)) _ ?_
      intro e he
      cases rc with
      | none => exact herr e he
      | some e' =>
        injection he with he
        exact he ▸ c2 e' h

theorem tr46P_errs {E : Env} {D : Data} (hI : Implements E.T D) (hU : E.U.Laws) (hD : D.Laws)
    (flags : Nat) (s : List Nat) : Errs (tr46P E D flags s) convErr := by
  have henc : convErr .encodingError := Or.inr (Or.inr (Or.inl rfl))
  unfold tr46P
  cases hu : u8Decode s with
  | none => exact Errs.err henc
  | some u =>
    simp only
    split
    · exact Errs.err (Or.inr (Or.inl (by unfold testErr; simp)))
    · split
      · exact Errs.err (Or.inr (Or.inr (Or.inr (Or.inr (Or.inl rfl)))))
      · cases hx : E.U.nfc (mapText D flags u) with
        | none => exact Errs.err henc
        | some x =>
          have hxs := hU.nfc_scalar _ x (mapText_scalar hD flags (u8Decode_isScalar hu)) hx
          obtain ⟨c1, c2⟩ := tr46LabelsP_codes (ls := splitDot x) hI
            (fun l hl c hc => hxs c (mem_of_mem_splitDot hl hc)) flags none (by intro e h; cases h)
          simp only
          cases h : tr46LabelsP E flags (splitDot x) none with
          | ub => exact Errs.ub
          | err e => exact Errs.err (c1 e h)
          | ok rc =>
            rw [Res.bind_ok]
            cases rc with
            | some e => exact Errs.err (Or.inr (Or.inl (c2 e h)))
            | none =>
              cases u8Encode x with
              | none => exact Errs.err henc
              | some o => exact Errs.ok

theorem lookupP_errs {E : Env} {D : Data} (hI : Implements E.T D) (hU : E.U.Laws) (hD : D.Laws)
    (flags : Nat) {s : List Nat} (h0 : 0 ∉ s) : Errs (lookupP E D flags s) convErr := by
  unfold lookupP
  have key : ∀ src : List Nat, 0 ∉ src → Errs (loopL E flags (splitDot src) []) convErr := by
    intro src h e he
    rcases loopL_errs he with rfl | ⟨l, hl, he⟩
    · exact Or.inr (Or.inr (Or.inr (Or.inr (Or.inl rfl))))
    · exact labelP_errs hI hU (fun hc => h (mem_of_mem_splitDot hl hc)) flags e he
  split
  · rw [Res.bind_ok]; exact key s h0
  · cases h : tr46P E D flags s with
    | ub => exact Errs.ub
    | err e => exact Errs.err (tr46P_errs hI hU hD flags s e h)
    | ok o => rw [Res.bind_ok]; exact key o (tr46P_zero hU hD h0 h)

end Idn2
