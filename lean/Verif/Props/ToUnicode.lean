import Verif.Props.Unicode
import Verif.Props.PunyDecode
import Verif.Spec.ToUnicode

/-
Property C49: to-unicode computes the declarative ToUnicode.
-/

namespace Idn2
open Spec

theorem uniDecodes_iff {t u : List Nat} : punycode_decode 63 63 t = .ok u ↔ Decodes t u := by
  rw [decode_iff (by omega) (by omega)]
  exact ⟨fun ⟨a, b, c, d, e⟩ => ⟨a, b, c, d, e⟩, fun h => ⟨h.chars, h.canon, h.encodable, h.nonascii, h.length⟩⟩

theorem labelFrom_iff {l x : List Nat} : uniLabelP l = .ok x ↔ LabelFrom l x := by
  unfold uniLabelP
  by_cases hx : XnPrefix l
  · rw [if_pos (aceAnyCase_iff.mpr hx), uniDecodes_iff]
    constructor
    · exact .alabel x hx
    · rintro (⟨_, h⟩ | ⟨h, _⟩)
      · exact h
      · exact absurd hx h
  · rw [if_neg (fun h => hx (aceAnyCase_iff.mp h))]
    constructor
    · intro h
      cases hd : u8Decode l with
      | none => rw [hd] at h; cases h
      | some y =>
        rw [hd] at h
        simp only at h
        split at h
        · cases h
        · injection h with h
          subst h
          obtain ⟨h1, h2⟩ := u8Decode_some_iff.mp hd
          exact .plain _ hx h1 h2 (by omega)
    · rintro (⟨h, _⟩ | ⟨_, h1, h2, h3⟩)
      · exact absurd h hx
      · rw [u8Decode_some_iff.mpr ⟨h1, h2⟩]
        simp only
        rw [if_neg (by omega)]

/-- C49.  To-unicode succeeds with `v` exactly when every label can be shown (those beginning
with "xn--" in any mixture of cases by undoing Punycode, the others, valid UTF-8, as they are)
and `v`, the labels joined by full stops, has at most 255 code points. -/
theorem C49_to_unicode_spec (s v : List Nat) : ToUniOk s v ↔ ToUnicode s v := by
  rw [ToUniOk_iff]
  unfold uniP ToUnicode
  rw [uniLoop_ok_iff (splitDot_ne_nil s)]
  simp only [List.nil_append, labelFrom_iff]

theorem decoding63_iff {t : List Nat} {e : Rc} :
    punycode_decode 63 63 t = .err e ↔ Punycode.Decoding 63 t (.error e) :=
  (C62_decode_exact t (.error e) (by omega) (by omega)).symm

theorem labelUnshown_iff {l : List Nat} {e : Rc} : uniLabelP l = .err e ↔ LabelUnshown l e := by
  unfold uniLabelP
  by_cases hx : XnPrefix l
  · rw [if_pos (aceAnyCase_iff.mpr hx), decoding63_iff]
    exact ⟨.alabel hx, fun h => h.casesOn (fun _ h => h) fun h _ => absurd hx h⟩
  · rw [if_neg (fun h => hx (aceAnyCase_iff.mp h))]
    refine Iff.trans (b := PlainError l e) ?_
      ⟨.plain hx, fun h => h.casesOn (fun h _ => absurd h hx) fun _ h => h⟩
    constructor
    · intro h
      cases hd : u8Decode l with
      | none =>
        rw [hd] at h
        cases h
        exact .encoding (u8Decode_none_iff.mp hd)
      | some y =>
        rw [hd] at h
        obtain ⟨h1, h2⟩ := u8Decode_some_iff.mp hd
        simp only at h
        split at h
        · rename_i hlen
          cases h
          exact .long y h1 h2 (by omega)
        · cases h
    · rintro (h | ⟨x, h1, h2, h3⟩)
      · rw [u8Decode_none_iff.mpr h]
      · rw [u8Decode_some_iff.mpr ⟨h1, h2⟩]
        simp only
        rw [if_pos (by omega)]

/-- The first label (after the labels `pre`, shown as `xs`) at which to-unicode gives up. -/
structure Spec.StopsAt (ls : List (List Nat)) (k : Nat) (e : Rc) (pre : List (List Nat))
    (l : List Nat) (post xs : List (List Nat)) : Prop where
  split : ls = pre ++ l :: post
  shown : Each LabelFrom pre xs
  fits : k + (xs.map (·.length + 1)).sum ≤ 255 ∨ pre = []
  why : LabelUnshown l e ∨ (e = .tooBigDomain ∧ ∃ x, LabelFrom l x ∧
    255 < k + (xs.map (·.length + 1)).sum + x.length + if post = [] then 0 else 1)

theorem uniLoop_err_iff {ls : List (List Nat)} {out : List Nat} {e : Rc} :
    uniLoop ls out = .err e ↔ ∃ pre l post xs, StopsAt ls out.length e pre l post xs := by
  induction ls generalizing out with
  | nil =>
    constructor
    · intro h; cases h
    · rintro ⟨pre, l, post, xs, h, _⟩
      cases pre <;> cases h
  | cons a ls ih =>
    have key : uniLoop (a :: ls) out = (do
        let u ← uniLabelP a
        if out.length + u.length + (if ls = [] then 0 else 1) > 255 then .err .tooBigDomain
        else if ls = [] then .ok (out ++ u) else uniLoop ls (out ++ u ++ [0x2E])) := by
      cases ls with
      | nil => rfl
      | cons b ls => simp [uniLoop]
    rw [key]
    cases hu : uniLabelP a with
    | ub =>
      exfalso
      exact uniLoop_ne_ub [a] [] (by simp [uniLoop, hu])
    | err e' =>
      simp only [Res.bind_err, Res.err.injEq]
      constructor
      · rintro rfl
        exact ⟨[], a, ls, [], rfl, .nil, .inr rfl, .inl (labelUnshown_iff.mp hu)⟩
      · rintro ⟨pre, l, post, xs, h1, h2, -, h4⟩
        cases pre with
        | nil =>
          cases h1
          rcases h4 with h4 | ⟨_, x, h4, _⟩
          · have := labelUnshown_iff.mpr h4
            rw [hu] at this
            injection this
          · have := labelFrom_iff.mpr h4
            rw [hu] at this
            cases this
        | cons p pre =>
          cases h1
          cases h2 with
          | cons ha hb =>
            have := labelFrom_iff.mpr ha
            rw [hu] at this
            cases this
    | ok u =>
      simp only [Res.bind_ok]
      have hfrom := labelFrom_iff.mp hu
      by_cases hlen : out.length + u.length + (if ls = [] then 0 else 1) > 255
      · rw [if_pos hlen]
        constructor
        · intro h
          cases h
          exact ⟨[], a, ls, [], rfl, .nil, .inr rfl, .inr ⟨rfl, u, hfrom, by simpa using hlen⟩⟩
        · rintro ⟨pre, l, post, xs, h1, h2, h3, h4⟩
          cases pre with
          | nil =>
            cases h1
            rcases h4 with h4 | ⟨h4, _⟩
            · have := labelUnshown_iff.mpr h4
              rw [hu] at this
              cases this
            · rw [h4]
          | cons p pre =>
            cases h1
            exfalso
            cases h2 with
            | cons ha hb =>
              have := labelFrom_iff.mpr ha
              rw [hu] at this
              cases this
              rcases h3 with h3 | h3
              · simp only [List.map_cons, List.sum_cons] at h3
                split at hlen <;> omega
              · cases h3
      · rw [if_neg hlen]
        by_cases hls : ls = []
        · subst hls
          rw [if_pos rfl]
          constructor
          · intro h; cases h
          · rintro ⟨pre, l, post, xs, h1, h2, h3, h4⟩
            exfalso
            cases pre with
            | nil =>
              cases h1
              rcases h4 with h4 | ⟨_, x, h4, h5⟩
              · have := labelUnshown_iff.mpr h4
                rw [hu] at this
                cases this
              · have := labelFrom_iff.mpr h4
                rw [hu] at this
                cases this
                cases h2
                simp at h5 hlen
                omega
            | cons p pre => cases pre <;> cases h1
        · rw [if_neg hls, ih]
          rw [if_neg hls] at hlen
          constructor
          · rintro ⟨pre, l, post, xs, h1, h2, h3, h4⟩
            refine ⟨a :: pre, l, post, u :: xs, by rw [h1]; rfl, .cons hfrom h2, ?_, ?_⟩
            · left
              simp only [List.map_cons, List.sum_cons, List.length_append, List.length_cons,
                List.length_nil] at h3 ⊢
              rcases h3 with h3 | h3
              · omega
              · subst h3; cases h2; simp; omega
            · rcases h4 with h4 | ⟨h4, x, h5, h6⟩
              · exact .inl h4
              · refine .inr ⟨h4, x, h5, ?_⟩
                simp only [List.map_cons, List.sum_cons, List.length_append, List.length_cons,
                  List.length_nil] at h6 ⊢
                omega
          · rintro ⟨pre, l, post, xs, h1, h2, h3, h4⟩
            cases pre with
            | nil =>
              exfalso
              cases h1
              rcases h4 with h4 | ⟨_, x, h4, h5⟩
              · have := labelUnshown_iff.mpr h4
                rw [hu] at this
                cases this
              · have := labelFrom_iff.mpr h4
                rw [hu] at this
                cases this
                cases h2
                rw [if_neg hls] at h5
                simp at h5
                omega
            | cons p pre =>
              cases h1
              cases h2 with
              | cons ha hb =>
                have := labelFrom_iff.mpr ha
                rw [hu] at this
                cases this
                refine ⟨pre, l, post, _, rfl, hb, ?_, ?_⟩
                · left
                  simp only [List.map_cons, List.sum_cons, List.length_append, List.length_cons,
                    List.length_nil] at h3 ⊢
                  rcases h3 with h3 | h3
                  · omega
                  · cases h3
                · rcases h4 with h4 | ⟨h4, x, h5, h6⟩
                  · exact .inl h4
                  · refine .inr ⟨h4, x, h5, ?_⟩
                    simp only [List.map_cons, List.sum_cons, List.length_append, List.length_cons,
                      List.length_nil] at h6 ⊢
                    omega

/-- C49, failures.  To-unicode reports `e` exactly when `e` is the complaint about the first
label that is refused or that makes the name too long, all labels before it being shown. -/
theorem C49_first_error (s : List Nat) (e : Rc) :
    ToUniErr s e ↔ ToUnicodeErr s e := by
  rw [ToUniErr_iff]
  unfold uniP ToUnicodeErr
  rw [uniLoop_err_iff]
  simp only [List.length_nil]
  constructor
  · rintro ⟨pre, l, post, xs, h1, h2, h3, h4⟩
    simp only [Nat.zero_add] at h3 h4
    refine ⟨pre, l, post, xs, h1, h2, ?_, h4⟩
    rcases h3 with h3 | rfl
    · exact h3
    · cases h2; simp
  · rintro ⟨pre, l, post, xs, h1, h2, h3, h4⟩
    refine ⟨pre, l, post, xs, h1, h2, ?_, ?_⟩
    · left; simpa only [Nat.zero_add] using h3
    · simpa only [Nat.zero_add] using h4

-- "Xn--F-0FA.x" is shown as "Fä.x": the prefix counts in any case
example : ToUnicode [0x58, 0x6E, 0x2D, 0x2D, 0x46, 0x2D, 0x30, 0x46, 0x41, 0x2E, 0x78]
    [0x46, 0xE4, 0x2E, 0x78] :=
  (C49_to_unicode_spec _ _).mp (by decide +kernel)

-- "ä.xn--a!.xn--" fails at its second label
example : ToUniErr [0xC3, 0xA4, 0x2E, 0x78, 0x6E, 0x2D, 0x2D, 0x61, 0x21, 0x2E, 0x78, 0x6E, 0x2D,
    0x2D] .punycodeBadInput := by decide +kernel

end Idn2
