import Verif.Props.BidiName

/-
Properties C85 and C86: to-unicode works label by label; and what it does to its own results.
-/

namespace Idn2
open Spec

/-- C85.  To-unicode of two names put together with a full stop: both are converted by themselves
and the results put together, if that is not too long. -/
theorem C85_compose (s t v : List Nat) :
    ToUniOk (s ++ 0x2E :: t) v ↔
      ∃ a b, ToUniOk s a ∧ ToUniOk t b ∧ v = a ++ 0x2E :: b ∧ v.length ≤ 255 := by
  have hne : ∀ {x : List Nat} {xs : List (List Nat)}, Each LabelFrom (splitDot x) xs → xs ≠ [] := by
    rintro x xs h rfl
    cases hx : splitDot x with
    | nil => exact splitDot_ne_nil x hx
    | cons _ _ => rw [hx] at h; cases h
  simp only [C49_to_unicode_spec]
  unfold ToUnicode
  rw [splitDot_append]
  constructor
  · rintro ⟨xs, h1, rfl, h2⟩
    obtain ⟨as, bs, rfl, h3, h4⟩ := each_of_append h1
    have hj := joinDot_append (hne h3) (hne h4)
    rw [hj] at h2 ⊢
    rw [List.length_append, List.length_cons] at h2
    exact ⟨joinDot as, joinDot bs, ⟨as, h3, rfl, by omega⟩, ⟨bs, h4, rfl, by omega⟩, rfl,
      by rw [List.length_append, List.length_cons]; exact h2⟩
  · rintro ⟨_, _, ⟨as, h3, rfl, _⟩, ⟨bs, h4, rfl, _⟩, rfl, h2⟩
    refine ⟨as ++ bs, each_append h3 h4, ?_, h2⟩
    rw [joinDot_append (hne h3) (hne h4)]

/-- C85, beside it: "xn--fa-hia.Ü" is shown as "faß.Ü". -/
example : ToUniOk ([0x78, 0x6E, 0x2D, 0x2D, 0x66, 0x61, 0x2D, 0x68, 0x69, 0x61] ++ 0x2E :: [0xC3, 0x9C])
      [0x66, 0x61, 0xDF, 0x2E, 0xDC] ∧
    ToUniOk [0x78, 0x6E, 0x2D, 0x2D, 0x66, 0x61, 0x2D, 0x68, 0x69, 0x61] [0x66, 0x61, 0xDF] ∧
    ToUniOk [0xC3, 0x9C] [0xDC] := by decide +kernel

theorem canonPuny_dot {t : List Nat} (h : ∀ c ∈ t, isLDHU c) : 0x2E ∉ canonPuny t := by
  induction t with
  | nil => simp [canonPuny]
  | cons a r ih =>
    have hr := ih fun c hc => h c (List.mem_cons_of_mem _ hc)
    unfold canonPuny
    split
    · have ha := h a List.mem_cons_self
      unfold isLDHU at ha
      rw [List.mem_cons]
      rintro (h | h)
      · omega
      · exact hr h
    · intro hm
      obtain ⟨c, hc, he⟩ := List.mem_map.mp hm
      have := h c hc
      unfold isLDHU at this
      unfold canonChar at he
      split at he
      · omega
      · split at he <;> omega

theorem utf8_nonascii {c : Nat} (h : 0x80 ≤ c) : ∃ b ∈ utf8 c, 0x80 ≤ b := by
  unfold utf8
  rw [if_neg (by omega)]
  split
  · exact ⟨_, List.mem_cons_self, by omega⟩
  · split <;> exact ⟨_, List.mem_cons_self, by omega⟩

theorem utf8s_xnPrefix {l : List Nat} (h : XnPrefix l) : XnPrefix (utf8s l) := by
  have hall : ∀ c ∈ l.take 4, c < 0x80 := by
    intro c hc
    have : asciiLower c ∈ (l.take 4).map asciiLower := List.mem_map_of_mem hc
    unfold XnPrefix at h
    rw [h] at this
    have hall : ∀ c ∈ [0x78, 0x6E, 0x2D, 0x2D], c < 0x80 := by decide
    have := hall _ this
    unfold asciiLower at this
    split at this <;> omega
  have e : utf8s l = l.take 4 ++ utf8s (l.drop 4) := by
    conv => lhs; rw [← List.take_append_drop 4 l]
    unfold utf8s
    rw [List.flatMap_append]
    exact congrArg (· ++ _) (ascii_utf8s hall)
  have h4 : (l.take 4).length = 4 := by
    have := congrArg List.length h
    rwa [List.length_map] at this
  unfold XnPrefix
  rw [e, List.take_append_of_le_length (by omega), List.take_of_length_le (by omega)]
  exact h

theorem labelFrom_nodot {l x : List Nat} (hl : 0x2E ∉ l) (h : LabelFrom l x) : 0x2E ∉ x := by
  cases h with
  | alabel h1 h2 =>
    intro hc
    have hm : (0x2E : Nat) ∈ Punycode.encode x := by
      rw [encode_eq_head, List.mem_append, headOf, List.mem_append]
      refine .inl (.inl ?_)
      unfold Punycode.basics
      simp [hc]
    rw [← h2.canon] at hm
    exact canonPuny_dot h2.chars hm
  | plain h1 h2 h3 h4 =>
    intro hc
    apply hl
    rw [h3]
    exact List.mem_flatMap.mpr ⟨0x2E, hc, by decide⟩

/-- C86.  To-unicode of a result of to-unicode: nothing changes, unless a label of the result
begins with "xn--" (in any case); then it is refused. -/
theorem C86_again_partial {s v : List Nat} (h : ToUniOk s v) (hs : ∀ c ∈ v, isScalar c) :
    ((∀ l ∈ splitDot v, ¬ XnPrefix l) → ToUniOk (utf8s v) v) ∧
    ((∃ l ∈ splitDot v, XnPrefix l) → ∀ w, ¬ ToUniOk (utf8s v) w) := by
  obtain ⟨xs, h1, rfl, h2⟩ := (C49_to_unicode_spec _ _).mp h
  have hne : xs ≠ [] := by
    rintro rfl
    cases hx : splitDot s with
    | nil => exact splitDot_ne_nil s hx
    | cons _ _ => rw [hx] at h1; cases h1
  have hnd : ∀ x ∈ xs, 0x2E ∉ x := by
    intro x hx
    obtain ⟨l, hl, hr⟩ := each_mem_right h1 hx
    exact labelFrom_nodot (mem_splitDot_nodot hl) hr
  have hxs := splitDot_joinDot hne hnd
  have hsc : ∀ x ∈ xs, ∀ c ∈ x, isScalar c := by
    intro x hx c hc
    rw [← hxs] at hx
    exact hs c (mem_of_mem_splitDot hx hc)
  rw [hxs]
  constructor
  · intro hx
    refine (C49_to_unicode_spec _ _).mpr ⟨xs, ?_, rfl, h2⟩
    rw [splitDot_utf8s hs, hxs]
    have : ∀ ys : List (List Nat), (∀ y ∈ ys, y ∈ xs) → Each LabelFrom (ys.map utf8s) ys := by
      intro ys
      induction ys with
      | nil => exact fun _ => .nil
      | cons y ys ih =>
        intro hy
        have hm := hy y List.mem_cons_self
        refine .cons (.plain y (fun h => hx y hm (xnPrefix_utf8s h)) (hsc y hm) rfl ?_)
          (ih fun z hz => hy z (List.mem_cons_of_mem _ hz))
        obtain ⟨l, hl, hr⟩ := each_mem_right h1 hm
        cases hr with
        | alabel _ hd => exact hd.length
        | plain _ _ _ h4 => exact h4
    exact this xs fun _ h => h
  · rintro ⟨x, hm, hp⟩ w hw
    obtain ⟨ys, h3, _⟩ := (C49_to_unicode_spec _ _).mp hw
    rw [splitDot_utf8s hs, hxs] at h3
    obtain ⟨y, _, hy⟩ := each_mem_left h3 (List.mem_map_of_mem (f := utf8s) hm)
    obtain ⟨l, hl, hr⟩ := each_mem_right h1 hm
    cases hr with
    | plain a1 a2 a3 a4 => exact a1 (by rw [a3]; exact utf8s_xnPrefix hp)
    | alabel a1 a2 =>
      obtain ⟨c, hc, hge⟩ := a2.nonascii
      cases hy with
      | plain b1 => exact b1 (utf8s_xnPrefix hp)
      | alabel b1 b2 =>
        -- the character that is not ASCII is behind the prefix
        have hasc : ∀ b ∈ utf8s x, b < 0x80 := by
          intro b hb
          rw [← List.take_append_drop 4 (utf8s x)] at hb
          rcases List.mem_append.mp hb with hb | hb
          · have : asciiLower b ∈ ((utf8s x).take 4).map asciiLower := List.mem_map_of_mem hb
            unfold XnPrefix at b1
            rw [b1] at this
            have hall : ∀ c ∈ [0x78, 0x6E, 0x2D, 0x2D], c < 0x80 := by decide
            have := hall _ this
            unfold asciiLower at this
            split at this <;> omega
          · have := b2.chars b hb
            unfold isLDHU at this
            omega
        obtain ⟨b, hb, hge'⟩ := utf8_nonascii hge
        have := hasc b (List.mem_flatMap.mpr ⟨c, hc, hb⟩)
        omega

/-- C86, beside it: "xn--fa-hia.a" and its Unicode form "faß.a". -/
example : ToUniOk [0x78, 0x6E, 0x2D, 0x2D, 0x66, 0x61, 0x2D, 0x68, 0x69, 0x61, 0x2E, 0x61]
      [0x66, 0x61, 0xDF, 0x2E, 0x61] ∧
    (∀ l ∈ splitDot [0x66, 0x61, 0xDF, 0x2E, 0x61], ¬ XnPrefix l) ∧
    ToUniOk (utf8s [0x66, 0x61, 0xDF, 0x2E, 0x61]) [0x66, 0x61, 0xDF, 0x2E, 0x61] := by
  decide +kernel

/-- C86, that to-unicode leaves its own results alone, is violated: "xn--xn---ooa" is shown as
"xn--ä", and that is refused.  (RFC 5891 forbids such labels; to-unicode does not check.) -/
theorem C86_violated : ∃ s v, (∀ c ∈ v, isScalar c) ∧ ToUniOk s v ∧
    ToUniErr (utf8s v) .punycodeBadInput :=
  ⟨[0x78, 0x6E, 0x2D, 0x2D, 0x78, 0x6E, 0x2D, 0x2D, 0x2D, 0x6F, 0x6F, 0x61],
    [0x78, 0x6E, 0x2D, 0x2D, 0xE4], by decide, by decide +kernel, by decide +kernel⟩

end Idn2
