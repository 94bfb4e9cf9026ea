import Verif.Props.Invisible
import Verif.Props.Delims

/-
Property C116: what to-unicode shows are the labels of a name that can be looked up.
-/

namespace Idn2
open Spec

/-- C116, what to-unicode does instead: it shows the A-label for any string of at most 59 characters in
Punycode as that string, whatever the characters are (the ASCII characters have to be letters, digits,
hyphens or underscores). -/
theorem C116_any {v : List Nat} (hs : ∀ c ∈ v, isScalar c) (hl : ∀ c ∈ v, c < 0x80 → isLDHU c)
    (hn : ∃ c ∈ v, 0x80 ≤ c) (h59 : (Punycode.encode v).length ≤ 59) :
    0x2E ∉ xn ++ Punycode.encode v ∧ ToUniOk (xn ++ Punycode.encode v) v := by
  have hd := Decodes.of hs hl hn h59
  refine ⟨ace_nodot hd, (C49_to_unicode_spec _ _).mpr ⟨[v], ?_, rfl, ?_⟩⟩
  · rw [splitDot_nodot (ace_nodot hd)]
    refine .cons (.alabel v ?_ ?_) .nil
    · rfl
    · exact hd
  · have := hd.length
    show v.length ≤ 255
    omega

/-- C116, the part that holds: the labels shown for a result of lookup pass the tests of lookup, unless
they are ASCII. -/
theorem C116_lookup_partial {E : Env} {D : Data} (W : World E D) {f : Nat} (f6 : f.testBit 6 = false)
    (f7 : f.testBit 7 = false) {u n v : List Nat} (hs : ∀ c ∈ u, isScalar c) (h0 : 0 ∉ u)
    (h : LookupOk E f (utf8s u) n) (hv : ToUniOk n v) :
    ∃ vs, v = joinDot vs ∧ StandsFor D E.U f u vs ∧
      ∀ w ∈ vs, (∃ c ∈ w, 0x80 ≤ c) → ∀ e, ¬ Fault D E.U (labelTests f) w e := by
  obtain ⟨vs, h1, -⟩ := C79_stands W f7 hs h0 h
  exact ⟨vs, C79_shown W f6 f7 hs h0 h hv h1, h1, C84_valid W f7 hs h0 h h1⟩

/-- C116 is violated: a single label is shown as a name of two labels, and looking up that name gives
these two.  The tables are those of the repository; the normaliser is any with the laws of NFC for which
ASCII characters are no combining marks. -/
theorem C116_violated {U : Uni} (h : U.Laws) (hm : ∀ c, c < 0x80 → U.isM c = false) {d : Nat}
    (hd : d ∈ [0x3002, 0xFF0E, 0xFF61]) {a b : List Nat} (ha : ∀ c ∈ a, isLowerLDH c ∧ c ≠ 0x2D)
    (hb : ∀ c ∈ b, isLowerLDH c ∧ c ≠ 0x2D) (h59 : (Punycode.encode (a ++ d :: b)).length ≤ 59) :
    (0x2E ∉ xn ++ Punycode.encode (a ++ d :: b) ∧
      ToUniOk (xn ++ Punycode.encode (a ++ d :: b)) (a ++ d :: b)) ∧
    LookupOk ⟨Shipped.T, U⟩ 0 (utf8s (a ++ d :: b)) (a ++ 0x2E :: b) := by
  have hdd : 0x80 ≤ d ∧ isScalar d ∧ d ≠ 0 ∧ foldName d = 0x2E := by
    have : ∀ d ∈ [0x3002, 0xFF0E, 0xFF61], 0x80 ≤ d ∧ isScalar d ∧ d ≠ 0 ∧ foldName d = 0x2E := by
      unfold isScalar; decide
    exact this d hd
  have hc : ∀ c, isLowerLDH c ∧ c ≠ 0x2D → (0 < c ∧ c < 0x80 ∧ c ≠ 0x2D ∧ ¬ (0x41 ≤ c ∧ c ≤ 0x5A)) ∧
      c ≠ 0x2E ∧ isScalar c ∧ isLDHU c ∧ foldName c = c := by
    rintro c ⟨h1, h2⟩
    unfold isLowerLDH at h1
    refine ⟨by omega, by omega, by left; omega, by unfold isLDHU; omega, ?_⟩
    unfold foldName
    rw [if_neg (by omega), if_neg (by omega)]
  have hmem : ∀ {x : Nat} {P : Nat → Prop}, (∀ c, isLowerLDH c ∧ c ≠ 0x2D → P c) → P x →
      ∀ c ∈ a ++ x :: b, P c := by
    intro x P hP hx c hcm
    rcases List.mem_append.mp hcm with h | h
    · exact hP c (ha c h)
    · rcases List.mem_cons.mp h with rfl | h
      · exact hx
      · exact hP c (hb c h)
  have hs : ∀ c ∈ a ++ d :: b, isScalar c := hmem (fun c h => (hc c h).2.2.1) hdd.2.1
  have h0 : ∀ c ∈ a ++ d :: b, c ≠ 0 := hmem (fun c h => by have := (hc c h).1.1; omega) hdd.2.2.1
  have hs' : ∀ c ∈ a ++ 0x2E :: b, isScalar c :=
    hmem (fun c h => (hc c h).2.2.1) (by unfold isScalar; decide)
  have h0' : ∀ c ∈ a ++ 0x2E :: b, c ≠ 0 := hmem (fun c h => by have := (hc c h).1.1; omega) (by decide)
  have hlen : (a ++ d :: b).length ≤ 59 := Nat.le_trans (length_le_encode (scalar_lt hs)) h59
  rw [List.length_append, List.length_cons] at hlen
  refine ⟨C116_any hs (hmem (fun c h _ => (hc c h).2.2.2.1) (fun h => absurd h (by omega)))
    ⟨d, by simp, hdd.1⟩ h59, ?_⟩
  have hfold : ∀ l : List Nat, (∀ c ∈ l, isLowerLDH c ∧ c ≠ 0x2D) → l.map foldName = l := by
    intro l hl
    rw [List.map_congr_left (g := id) fun c h => (hc c (hl c h)).2.2.2.2, List.map_id]
  refine ((C33_case_dots (World.shipped h) hs hs' (fun h => h0 0 h rfl) (fun h => h0' 0 h rfl) (by decide)
    ?_).1 _).mpr ?_
  · rw [List.map_append, List.map_append, List.map_cons, List.map_cons, hdd.2.2.2]
    rfl
  · refine plainAscii_lookup (World.shipped h) hm (hmem (fun c h => (hc c h).1) (by decide)) ?_ ?_
    · have hna : 0x2E ∉ a := fun h => (hc _ (ha _ h)).2.1 rfl
      have hnb : 0x2E ∉ b := fun h => (hc _ (hb _ h)).2.1 rfl
      rw [splitDot_append_dot hna, splitDot_nodot hnb]
      intro l hl
      simp only [List.mem_cons, List.not_mem_nil, or_false] at hl
      rcases hl with rfl | rfl <;> omega
    · rw [List.length_append, List.length_cons]
      omega

/-- C116 is violated for the bidirectional controls, too: to-unicode shows them between any letters,
digits and hyphens, although no result of lookup has them (C114). -/
theorem C116_bidi_controls {c : Nat} (hc : c ∈ bidiControls) {a b : List Nat}
    (ha : ∀ c ∈ a, isLowerLDH c) (hb : ∀ c ∈ b, isLowerLDH c)
    (h59 : (Punycode.encode (a ++ c :: b)).length ≤ 59) :
    ToUniOk (xn ++ Punycode.encode (a ++ c :: b)) (a ++ c :: b) := by
  have hk : 0x80 ≤ c ∧ isScalar c := by
    have : ∀ c ∈ bidiControls, 0x80 ≤ c ∧ isScalar c := by unfold isScalar; decide
    exact this c hc
  have hl : ∀ x, isLowerLDH x → x < 0x80 ∧ isLDHU x := by
    intro x h; unfold isLowerLDH at h; unfold isLDHU; omega
  refine (C116_any ?_ ?_ ⟨c, by simp, hk.1⟩ h59).2
  · intro x hx
    rcases List.mem_append.mp hx with h | h
    · have := (hl x (ha x h)).1; left; omega
    · rcases List.mem_cons.mp h with rfl | h
      · exact hk.2
      · have := (hl x (hb x h)).1; left; omega
  · intro x hx hlt
    rcases List.mem_append.mp hx with h | h
    · exact (hl x (ha x h)).2
    · rcases List.mem_cons.mp h with rfl | h
      · omega
      · exact (hl x (hb x h)).2

/-- "xn--ab-r13a" is one label, and is shown as "a。b", which is the name "a.b" in lookup. -/
example : ToUniOk (str "xn--ab-r13a") [0x61, 0x3002, 0x62] := by decide +kernel

/-- "xn--ab-g4t" is shown with the right-to-left override. -/
example : ToUniOk (str "xn--ab-g4t") [0x61, 0x202E, 0x62] := by decide +kernel

end Idn2
