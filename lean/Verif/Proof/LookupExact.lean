import Verif.Props.LookupNfc

/-
The declarative accounts of errors give one code: uniqueness.
-/

namespace Idn2
open Spec

theorem Spec.Undecodable.unique {l : List Nat} {e e' : Rc} (h : Undecodable l e)
    (h' : Undecodable l e') : e = e' := by
  obtain ⟨t, h1, h2⟩ := h
  obtain ⟨t', h1', h2'⟩ := h'
  have := xn_cancel (h1.symm.trans h1')
  subst this
  obtain ⟨y, _, hy⟩ := C62_unique (cap := 63) t (by omega)
  have := (hy _ h2).trans (hy _ h2').symm
  injection this

theorem Spec.TooLong.unique {v : List Nat} {e e' : Rc} (h : TooLong v e) (h' : TooLong v e') :
    e = e' := h.2.trans h'.2.symm

/-! ### Labels -/

/-- What becomes of a label after normalising, if it is an error. -/
def TailErr (D : Data) (U : Uni) (what : Nat) (v : List Nat) (e : Rc) : Prop :=
  FirstFault D U what v e ∨ ((∀ e, ¬ Fault D U what v e) ∧
    (TooLong v e ∨ ((Punycode.encode v).length ≤ 59 ∧ e = .alabelRoundtripFailed)))

theorem TailErr.unique {D : Data} {U : Uni} {what : Nat} {v : List Nat} {e e' : Rc}
    (h : TailErr D U what v e) (h' : TailErr D U what v e') : e = e' := by
  rcases h with h | ⟨h, h1⟩
  · rcases h' with h' | ⟨h', _⟩
    · exact h.unique h'
    · exact absurd h.fault (h' _)
  · rcases h' with h' | ⟨h', h1'⟩
    · exact absurd h'.fault (h _)
    · rcases h1 with h1 | ⟨h1, rfl⟩ <;> rcases h1' with h2 | ⟨h2, rfl⟩
      · exact h1.unique h2
      · have := h1.1; omega
      · have := h2.1; omega
      · rfl

/-- The errors of a label with any way `N` of normalising, which may fail (`F`). -/
def LabelErrG (D : Data) (U : Uni) (flags : Nat) (N : List Nat → List Nat → Prop)
    (F : List Nat → Prop) (l : List Nat) (e : Rc) : Prop :=
  ((∀ c ∈ l, c < 0x80) ∧ ¬ (flags.testBit 7 = false ∧ xn <+: l) ∧ e = .tooBigLabel) ∨
  ((∀ c ∈ l, c < 0x80) ∧ flags.testBit 7 = false ∧
    (Undecodable l e ∨ ∃ t u, l = xn ++ t ∧ Decodes t u ∧
      ((¬ (∀ c ∈ u, isScalar c) ∧ e = .encodingError) ∨ ((∀ c ∈ u, isScalar c) ∧
        ((F u ∧ e = .nfc) ∨ ∃ v, N u v ∧ TailErr D U (labelTests flags) v e))))) ∨
  ((∃ c ∈ l, 0x80 ≤ c) ∧
    ((F l ∧ e = .nfc) ∨ ∃ v, N l v ∧ TailErr D U (labelTests flags) v e))

theorem LabelErrG.unique {D : Data} {U : Uni} {flags : Nat} {N : List Nat → List Nat → Prop}
    {F : List Nat → Prop} (hN : ∀ l v w, N l v → N l w → v = w) (hF : ∀ l v, N l v → F l → False)
    {l : List Nat} {e e' : Rc} (h : LabelErrG D U flags N F l e)
    (h' : LabelErrG D U flags N F l e') : e = e' := by
  have tail : ∀ {u : List Nat} {e e' : Rc},
      ((F u ∧ e = .nfc) ∨ ∃ v, N u v ∧ TailErr D U (labelTests flags) v e) →
      ((F u ∧ e' = .nfc) ∨ ∃ v, N u v ∧ TailErr D U (labelTests flags) v e') → e = e' := by
    rintro u e e' (⟨h1, rfl⟩ | ⟨v, h1, h2⟩) (⟨h1', rfl⟩ | ⟨v', h1', h2'⟩)
    · rfl
    · exact (hF _ _ h1' h1).elim
    · exact (hF _ _ h1 h1').elim
    · have := hN _ _ _ h1 h1'
      subst this
      exact h2.unique h2'
  have pre : ∀ {e : Rc}, (Undecodable l e ∨ ∃ t u, l = xn ++ t ∧ Decodes t u ∧
      ((¬ (∀ c ∈ u, isScalar c) ∧ e = .encodingError) ∨ ((∀ c ∈ u, isScalar c) ∧
        ((F u ∧ e = .nfc) ∨ ∃ v, N u v ∧ TailErr D U (labelTests flags) v e)))) → xn <+: l := by
    rintro e (⟨t, rfl, _⟩ | ⟨t, u, rfl, _⟩)
    · exact ⟨t, rfl⟩
    · exact ⟨t, rfl⟩
  rcases h with ⟨a1, a2, rfl⟩ | ⟨a1, a2, a3⟩ | ⟨a1, a2⟩ <;>
    rcases h' with ⟨b1, b2, rfl⟩ | ⟨b1, b2, b3⟩ | ⟨b1, b2⟩
  · rfl
  · exact absurd ⟨b2, pre b3⟩ a2
  · exact (not_both a1 b1).elim
  · exact absurd ⟨a2, pre a3⟩ b2
  · rcases a3 with a3 | ⟨t, u, rfl, h1, h2⟩ <;> rcases b3 with b3 | ⟨t', u', k, h1', h2'⟩
    · exact a3.unique b3
    · exact (undecodable_not a3 k h1').elim
    · exact (undecodable_not b3 rfl h1).elim
    · have := xn_cancel k
      subst this
      have := h1.unique h1'
      subst this
      rcases h2 with ⟨h2, rfl⟩ | ⟨h2, h3⟩ <;> rcases h2' with ⟨h2', rfl⟩ | ⟨h2', h3'⟩
      · rfl
      · exact absurd h2' h2
      · exact absurd h2 h2'
      · exact tail h3 h3'
  · exact (not_both a1 b1).elim
  · exact (not_both b1 a1).elim
  · exact (not_both b1 a1).elim
  · exact tail a2 b2

theorem Spec.LabelErr.unique {D : Data} {U : Uni} {flags : Nat} {l : List Nat} {e e' : Rc}
    (h : LabelErr D U flags l e) (h' : LabelErr D U flags l e') : e = e' := by
  have conv : ∀ {e : Rc}, LabelErr D U flags l e →
      LabelErrG D U flags (fun a b => b = a) (fun _ => False) l e := by
    intro e h
    cases h with
    | long h1 h2 => exact Or.inl ⟨h1, h2, rfl⟩
    | undecodable _ h1 h2 h3 => exact Or.inr (Or.inl ⟨h2, h1, Or.inl h3⟩)
    | surrogate t u h1 h2 h3 h4 =>
      exact Or.inr (Or.inl ⟨h2 ▸ decodes_ascii h3, h1, Or.inr ⟨t, u, h2, h3, Or.inl ⟨h4, rfl⟩⟩⟩)
    | alabelFault t u _ h1 h2 h3 h4 h5 =>
      exact Or.inr (Or.inl ⟨h2 ▸ decodes_ascii h3, h1, Or.inr ⟨t, u, h2, h3,
        Or.inr ⟨h4, Or.inr ⟨u, rfl, Or.inl h5⟩⟩⟩⟩)
    | alabelLong t u h1 h2 h3 h4 h5 h6 =>
      refine Or.inr (Or.inl ⟨h2 ▸ decodes_ascii h3, h1, Or.inr ⟨t, u, h2, h3,
        Or.inr ⟨h4, Or.inr ⟨u, rfl, Or.inr ⟨h5, Or.inl ⟨?_, ?_⟩⟩⟩⟩⟩⟩)
      · rw [← h3.canon, canonPuny_length]; exact h6
      · rw [if_pos (by have := h3.length; omega)]
    | alabelOther t u h1 h2 h3 h4 h5 h6 h7 =>
      refine Or.inr (Or.inl ⟨h2 ▸ decodes_ascii h3, h1, Or.inr ⟨t, u, h2, h3,
        Or.inr ⟨h4, Or.inr ⟨u, rfl, Or.inr ⟨h5, Or.inr ⟨?_, rfl⟩⟩⟩⟩⟩⟩)
      rw [← h3.canon, canonPuny_length]; exact h6
    | ulabelFault _ h1 h2 => exact Or.inr (Or.inr ⟨h1, Or.inr ⟨l, rfl, Or.inl h2⟩⟩)
    | ulabelLong _ h1 h2 h3 =>
      exact Or.inr (Or.inr ⟨h1, Or.inr ⟨l, rfl, Or.inr ⟨h2, Or.inl h3⟩⟩⟩)
    | ulabelOther h1 h2 h3 =>
      exact Or.inr (Or.inr ⟨h1, Or.inr ⟨l, rfl, Or.inr ⟨h2, Or.inr ⟨h3, rfl⟩⟩⟩⟩)
  exact LabelErrG.unique (by rintro l v w rfl rfl; rfl) (fun _ _ _ h => h) (conv h) (conv h')

theorem Spec.LabelErrNfc.unique {D : Data} {U : Uni} {flags : Nat} {l : List Nat} {e e' : Rc}
    (h : LabelErrNfc D U flags l e) (h' : LabelErrNfc D U flags l e') : e = e' := by
  have conv : ∀ {e : Rc}, LabelErrNfc D U flags l e →
      LabelErrG D U flags (Norm D U) (NormFails D U) l e := by
    intro e h
    cases h with
    | long h1 h2 => exact Or.inl ⟨h1, h2, rfl⟩
    | undecodable _ h1 h2 h3 => exact Or.inr (Or.inl ⟨h2, h1, Or.inl h3⟩)
    | surrogate t u h1 h2 h3 h4 =>
      exact Or.inr (Or.inl ⟨h2 ▸ decodes_ascii h3, h1, Or.inr ⟨t, u, h2, h3, Or.inl ⟨h4, rfl⟩⟩⟩)
    | alabelNfc t u h1 h2 h3 h4 h5 =>
      exact Or.inr (Or.inl ⟨h2 ▸ decodes_ascii h3, h1, Or.inr ⟨t, u, h2, h3,
        Or.inr ⟨h4, Or.inl ⟨h5, rfl⟩⟩⟩⟩)
    | alabelFault t u v _ h1 h2 h3 h4 h5 h6 =>
      exact Or.inr (Or.inl ⟨h2 ▸ decodes_ascii h3, h1, Or.inr ⟨t, u, h2, h3,
        Or.inr ⟨h4, Or.inr ⟨v, h5, Or.inl h6⟩⟩⟩⟩)
    | alabelLong t u v _ h1 h2 h3 h4 h5 h6 h7 =>
      exact Or.inr (Or.inl ⟨h2 ▸ decodes_ascii h3, h1, Or.inr ⟨t, u, h2, h3,
        Or.inr ⟨h4, Or.inr ⟨v, h5, Or.inr ⟨h6, Or.inl h7⟩⟩⟩⟩⟩)
    | alabelOther t u v h1 h2 h3 h4 h5 h6 h7 h8 =>
      exact Or.inr (Or.inl ⟨h2 ▸ decodes_ascii h3, h1, Or.inr ⟨t, u, h2, h3,
        Or.inr ⟨h4, Or.inr ⟨v, h5, Or.inr ⟨h6, Or.inr ⟨h7, rfl⟩⟩⟩⟩⟩⟩)
    | ulabelNfc h1 h2 => exact Or.inr (Or.inr ⟨h1, Or.inl ⟨h2, rfl⟩⟩)
    | ulabelFault v _ h1 h2 h3 => exact Or.inr (Or.inr ⟨h1, Or.inr ⟨v, h2, Or.inl h3⟩⟩)
    | ulabelLong v _ h1 h2 h3 h4 =>
      exact Or.inr (Or.inr ⟨h1, Or.inr ⟨v, h2, Or.inr ⟨h3, Or.inl h4⟩⟩⟩)
    | ulabelOther v h1 h2 h3 h4 =>
      exact Or.inr (Or.inr ⟨h1, Or.inr ⟨v, h2, Or.inr ⟨h3, Or.inr ⟨h4, rfl⟩⟩⟩⟩)
  exact LabelErrG.unique (N := Norm D U) (F := NormFails D U) (fun _ _ _ => Norm.unique)
    (fun _ _ => Norm.not_fails) (conv h) (conv h')

/-! ### Sequences of labels -/

/-- Two places in a list. -/
theorem two_places {α : Type} {p q p' q' : List α} {a b : α} (h : p ++ a :: q = p' ++ b :: q') :
    (p = p' ∧ a = b ∧ q = q') ∨ (∃ m, p' = p ++ a :: m ∧ q = m ++ b :: q') ∨
      ∃ m, p = p' ++ b :: m ∧ q' = m ++ a :: q := by
  induction p generalizing p' with
  | nil =>
    cases p' with
    | nil => injection h with h1 h2; exact Or.inl ⟨rfl, h1, h2⟩
    | cons x p' =>
      injection h with h1 h2
      subst h1
      exact Or.inr (Or.inl ⟨p', rfl, h2⟩)
  | cons x p ih =>
    cases p' with
    | nil =>
      injection h with h1 h2
      subst h1
      exact Or.inr (Or.inr ⟨p, rfl, h2.symm⟩)
    | cons y p' =>
      injection h with h1 h2
      subst h1
      rcases ih h2 with ⟨rfl, h3, h4⟩ | ⟨m, rfl, h3⟩ | ⟨m, rfl, h3⟩
      · exact Or.inl ⟨rfl, h3, h4⟩
      · exact Or.inr (Or.inl ⟨m, rfl, h3⟩)
      · exact Or.inr (Or.inr ⟨m, rfl, h3⟩)

theorem joinDot_prefix_le {a b : List (List Nat)} :
    (joinDot a).length ≤ (joinDot (a ++ b)).length := by
  by_cases ha : a = []
  · subst ha; simp [joinDot]
  · by_cases hb : b = []
    · subst hb; simp
    · have := joinDot_append_lt ha hb
      omega

theorem firstErr_unique {ok : List Nat → List Nat → Prop} {er : List Nat → Rc → Prop}
    (hu : ∀ l d d', ok l d → ok l d' → d = d') (hx : ∀ l d e, er l e → ok l d → False)
    (he : ∀ l e e', er l e → er l e' → e = e')
    {ls : List (List Nat)} {e e' : Rc} (h : FirstErr ok er ls e) (h' : FirstErr ok er ls e') :
    e = e' := by
  -- a label before the place of an error
  have before : ∀ {pre m : List (List Nat)} {l : List Nat} {ds es : List (List Nat)} {e : Rc}
      {post : List (List Nat)}, Each ok pre ds → (er l e ∨ ∃ d, ok l d ∧ e = .tooBigDomain ∧
        (if post = [] ∧ d = [] then 254 else 253) < (joinDot (ds ++ [d])).length) →
      Each ok (pre ++ l :: m) es → (joinDot es).length ≤ 253 → False := by
    intro pre m l ds es e post h1 h2 h3 h4
    obtain ⟨b1, x, b2, rfl, g1, g2, g3⟩ := each_split h3
    have := each_unique (R := ok) hu g1 h1
    subst this
    rcases h2 with h2 | ⟨d, h2, _, h5⟩
    · exact hx _ _ _ h2 g2
    · have := hu _ _ _ g2 h2
      subst this
      have h6 := joinDot_prefix_le (a := b1 ++ [x]) (b := b2)
      rw [List.append_assoc, List.singleton_append] at h6
      split at h5 <;> omega
  obtain ⟨pre, l, post, ds, k1, k2, k3, k4⟩ := h
  obtain ⟨pre', l', post', ds', k1', k2', k3', k4'⟩ := h'
  rcases two_places (k1.symm.trans k1') with ⟨rfl, rfl, rfl⟩ | ⟨m, rfl, _⟩ | ⟨m, rfl, _⟩
  · have := each_unique (R := ok) hu k2 k2'
    subst this
    rcases k4 with k4 | ⟨d, k4, rfl, k5⟩ <;> rcases k4' with k4' | ⟨d', k4', rfl, k5'⟩
    · exact he _ _ _ k4 k4'
    · exact (hx _ _ _ k4 k4').elim
    · exact (hx _ _ _ k4' k4).elim
    · rfl
  · exact (before k2 k4 k2' k3').elim
  · exact (before k2' k4' k2 k3).elim

theorem Spec.Tr46Fault.unique {D : Data} {U : Uni} {flags : Nat} {l : List Nat} {e e' : Rc}
    (h : Tr46Fault D U flags l e) (h' : Tr46Fault D U flags l e') : e = e' := by
  cases h with
  | alabel t u h1 h2 h3 =>
    cases h' with
    | alabel t' u' g1 g2 g3 =>
      have := xn_cancel (h1.symm.trans g1)
      subst this
      have := h2.unique g2
      subst this
      exact h3.unique g3
    | ulabel g1 => exact absurd ⟨t, h1.symm⟩ g1
  | ulabel h1 h2 =>
    cases h' with
    | alabel t' u' g1 => exact absurd ⟨t', g1.symm⟩ h1
    | ulabel g1 g2 => exact h2.unique g2

theorem Spec.Tr46Err.unique {D : Data} {U : Uni} {flags : Nat} {ls : List (List Nat)} {e e' : Rc}
    (h : Tr46Err D U flags ls e) (h' : Tr46Err D U flags ls e') : e = e' := by
  cases h with
  | stop pre post l h1 h2 h3 =>
    cases h' with
    | stop pre' post' l' g1 g2 g3 =>
      rcases two_places (h1.symm.trans g1) with ⟨_, rfl, _⟩ | ⟨m, rfl, _⟩ | ⟨m, rfl, _⟩
      · exact h3.unique g3
      · exact absurd h3 (g2 l (by simp) _)
      · exact absurd g3 (h2 l' (by simp) _)
    | last pre' post' l' g1 g2 => exact absurd h3 (g2 l (by rw [h1]; simp) _)
  | last pre post l h1 h2 h3 h4 =>
    cases h' with
    | stop pre' post' l' g1 g2 g3 => exact absurd g3 (h2 l' (by rw [g1]; simp) _)
    | last pre' post' l' g1 g2 g3 g4 =>
      rcases two_places (h1.symm.trans g1) with ⟨_, rfl, _⟩ | ⟨m, _, rfl⟩ | ⟨m, _, rfl⟩
      · exact h3.unique g3
      · exact (tr46Fault_not_valid g3 (h4 l' (by simp))).elim
      · exact (tr46Fault_not_valid h3 (g4 l (by simp))).elim

theorem Spec.ProcessErr.unique {D : Data} {U : Uni} {flags : Nat} {u : List Nat} {e e' : Rc}
    (h : ProcessErr D U flags u e) (h' : ProcessErr D U flags u e') : e = e' := by
  cases h with
  | disallowed c h1 h2 =>
    cases h' with
    | disallowed => rfl
    | long g => exact absurd h2 (g c h1)
    | nfc g => exact absurd h2 (g c h1)
    | labels _ _ g => exact absurd h2 (g c h1)
  | long h1 h2 =>
    cases h' with
    | disallowed c g1 g2 => exact absurd g2 (h1 c g1)
    | long => rfl
    | nfc _ g => omega
    | labels _ _ _ g => omega
  | nfc h1 h2 h3 =>
    cases h' with
    | disallowed c g1 g2 => exact absurd g2 (h1 c g1)
    | long _ g => omega
    | nfc => rfl
    | labels _ _ _ _ g => rw [h3] at g; cases g
  | labels x _ h1 h2 h3 h4 =>
    cases h' with
    | disallowed c g1 g2 => exact absurd g2 (h1 c g1)
    | long _ g => omega
    | nfc _ _ g => rw [h3] at g; cases g
    | labels y _ _ _ g g' =>
      rw [h3] at g
      injection g with g
      subst g
      exact h4.unique g'

theorem Spec.Processed.unique {D : Data} {U : Uni} {flags : Nat} {u x y : List Nat}
    (h : Processed D U flags u x) (h' : Processed D U flags u y) : x = y := by
  unfold Processed at h h'
  split at h
  · rename_i h6
    rw [if_pos h6] at h'
    rw [h, h']
  · rename_i h6
    rw [if_neg h6] at h'
    have := h'.2.2.1
    rw [h.2.2.1] at this
    injection this

theorem Spec.ToAsciiErr.unique {D : Data} {U : Uni} {flags : Nat} {u : List Nat} {e e' : Rc}
    (h : ToAsciiErr D U flags u e) (h' : ToAsciiErr D U flags u e') : e = e' := by
  rcases h with ⟨h6, h⟩ | ⟨x, hx, h⟩ <;> rcases h' with ⟨h6', h'⟩ | ⟨x', hx', h'⟩
  · exact h.unique h'
  · exact (processErr_not h6 h hx').elim
  · exact (processErr_not h6' h' hx).elim
  · have := hx.unique hx'
    subst this
    exact firstErr_unique (ok := LabelTo D U flags) (er := LabelErr D U flags)
      (fun _ _ _ => labelTo_unique) (fun _ _ _ => labelErr_not_to)
      (fun _ _ _ => Spec.LabelErr.unique) h h'

theorem Spec.ToAsciiErrNfc.unique {D : Data} {U : Uni} {flags : Nat} {u : List Nat} {e e' : Rc}
    (h : ToAsciiErrNfc D U flags u e) (h' : ToAsciiErrNfc D U flags u e') : e = e' :=
  firstErr_unique (ok := LabelToNfc D U flags) (er := LabelErrNfc D U flags)
    (fun _ _ _ => labelToNfc_unique) (fun _ _ _ => labelErrNfc_not_to)
    (fun _ _ _ => Spec.LabelErrNfc.unique) h h'

end Idn2
