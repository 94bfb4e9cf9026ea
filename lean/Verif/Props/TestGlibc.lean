import Verif.Model.TestGlibc
import Verif.Spec.TestGlibc
import Verif.Spec.Cli
import Verif.Props.TestPrograms

/-
Property C96: what the exit status of tests/test-glibc.c says about the library and the locales.
-/

namespace Idn2

open Spec Spec.TestPrograms Spec.TestGlibc

namespace TestGlibc

/-- What a call asks for. -/
def Meets (L : Loc) : Check → Prop
  | .lookup i e => Gives L.lookup_ul i e
  | .unicode i e => Gives L.to_unicode_lzlz i e
  | .failure i e => Fails L.to_unicode_lzlz i e

/-- The strings of a call have no zeros. -/
def Check.Plain : Check → Prop
  | .lookup i _ => 0 ∉ i
  | .unicode i _ => 0 ∉ i
  | .failure i _ => 0 ∉ i

/-- The counter stays the same exactly when `P` holds. -/
private def Step (f : Nat → Out Nat) (P : Prop) : Prop :=
  ∀ n, ∃ m, f n = .val m ∧ n ≤ m ∧ (m = n ↔ P)

private theorem step_success {f : Spec.TestPrograms.Look} (hf : LookSets f) {i : List Nat} (h0 : 0 ∉ i)
    (e : List Nat) :
    Step (check_success e (f (some i) (some .null) 0).1 (f (some i) (some .null) 0).2) (Gives f i e) := by
  intro n
  have h := hf i .null 0 h0
  unfold Gives
  revert h
  generalize f (some i) (some .null) 0 = r
  obtain ⟨r1, r2⟩ := r
  intro h
  cases r1 with
  | some x => exact ⟨n + 1, rfl, by omega, by simp⟩
  | none =>
    obtain ⟨p, s, h⟩ := h rfl
    simp only at h
    subst h
    by_cases hs : s = e
    · exact ⟨n, by simp [check_success, TestPrograms.strEq, hs, bind, Out.bind, pure], by omega,
        by simp [hs]⟩
    · exact ⟨n + 1, by simp [check_success, TestPrograms.strEq, hs, bind, Out.bind, pure], by omega,
        by simp [hs]⟩

private theorem step_failure {f : Spec.TestPrograms.Look} (hf : LookSets f) {i : List Nat} (h0 : 0 ∉ i)
    (e : Rc) :
    Step (check_failure e (f (some i) (some .null) 0).1 (f (some i) (some .null) 0).2) (Fails f i e) := by
  intro n
  have h := hf i .null 0 h0
  unfold Fails
  revert h
  generalize f (some i) (some .null) 0 = r
  obtain ⟨r1, r2⟩ := r
  intro h
  cases r1 with
  | some x =>
    by_cases hx : x = e
    · exact ⟨n, by simp [check_failure, hx], by omega, by simp [hx]⟩
    · exact ⟨n + 1, by simp [check_failure, hx], by omega, by simp [hx]⟩
  | none =>
    obtain ⟨p, s, h⟩ := h rfl
    simp only at h
    subst h
    exact ⟨n + 1, rfl, by omega, by simp⟩

private theorem step_check {L : Loc} (hl : LookSets L.lookup_ul) (hu : LookSets L.to_unicode_lzlz)
    {c : Check} (h0 : c.Plain) : Step (runCheck L c) (Meets L c) := by
  cases c with
  | lookup i e => exact step_success hl h0 e
  | unicode i e => exact step_success hu h0 e
  | failure i e => exact step_failure hu h0 e

private theorem step_checks {L : Loc} (hl : LookSets L.lookup_ul) (hu : LookSets L.to_unicode_lzlz) :
    ∀ {cs : List Check}, (∀ c ∈ cs, c.Plain) → Step (runChecks L cs) (∀ c ∈ cs, Meets L c) := by
  intro cs
  induction cs with
  | nil => intro _ n; exact ⟨n, rfl, by omega, by simp⟩
  | cons c r ih =>
    intro h n
    obtain ⟨m, h1, h2, h3⟩ := step_check hl hu (h c (by simp)) n
    obtain ⟨k, h4, h5, h6⟩ := ih (fun x hx => h x (by simp [hx])) m
    refine ⟨k, by simp only [runChecks, bind, Out.bind, h1, h4], by omega, ?_⟩
    simp only [List.forall_mem_cons]
    rw [← h3, ← h6]
    omega

private theorem kinds {n1 n2 a1 a2 : Prop} [Decidable n1] [Decidable n2] [Decidable a1] [Decidable a2]
    (d1 : ¬ (n1 ∧ n2)) (d2 : ¬ (a1 ∧ a2)) :
    let expected := if n1 then Kind.utf8 else if n2 then .latin1 else .neither
    let actual := if a1 then Kind.utf8 else if a2 then .latin1 else .neither
    let r := if expected ≠ actual then none else some actual
    (r = none ↔ ¬ ((n1 ↔ a1) ∧ (n2 ↔ a2))) ∧ (r = some .utf8 ↔ ((n1 ↔ a1) ∧ (n2 ↔ a2)) ∧ n1) ∧
      (r = some .latin1 ↔ ((n1 ↔ a1) ∧ (n2 ↔ a2)) ∧ n2) := by
  by_cases h1 : n1 <;> by_cases h2 : n2 <;> by_cases h3 : a1 <;> by_cases h4 : a2 <;> simp_all

/-- The kind found, if the locale is honest. -/
private theorem determine_spec (L : Loc) :
    (determine_current_charset_kind L = none ↔ ¬ Honest L.charset L.wcs) ∧
    (determine_current_charset_kind L = some .utf8 ↔
      Honest L.charset L.wcs ∧ NamedUtf8 L.charset) ∧
    (determine_current_charset_kind L = some .latin1 ↔
      Honest L.charset L.wcs ∧ NamedLatin1 L.charset) := by
  have n1 : L.charset = utf8Name ↔ NamedUtf8 L.charset := by
    unfold NamedUtf8; rw [show ascii "UTF-8" = utf8Name from by decide]
  have n2 : (L.charset = iso1Name ∨ L.charset = iso15Name ∨ L.charset = cpName) ↔
      NamedLatin1 L.charset := by
    unfold NamedLatin1
    rw [show ascii "ISO-8859-1" = iso1Name from by decide,
      show ascii "ISO-8859-15" = iso15Name from by decide, show ascii "CP1252" = cpName from by decide]
  have a1 : (wcsrtombs_strdup L L_naemchen = naemchen_utf8 ∧ wcsrtombs_strdup L L_shem = shem_utf8) ↔
      ActsUtf8 L.wcs := by
    unfold ActsUtf8 wcsrtombs_strdup
    rw [show utf8s [0x6E, 0xE4, 0x6D, 0x63, 0x68, 0x65, 0x6E] = naemchen_utf8 from by decide,
      show utf8s [0x5E9, 0x5DD] = shem_utf8 from by decide]
    show _ ↔ L.wcs L_naemchen = _ ∧ L.wcs L_shem = _
    cases L.wcs L_naemchen <;> cases L.wcs L_shem <;> simp [naemchen_utf8, shem_utf8]
  have a2 : (wcsrtombs_strdup L L_naemchen = naemchen_latin1 ∧ wcsrtombs_strdup L L_shem = []) ↔
      ActsLatin1 L.wcs := by
    unfold ActsLatin1 wcsrtombs_strdup
    show _ ↔ L.wcs L_naemchen = some naemchen_latin1 ∧ (L.wcs L_shem = _ ∨ L.wcs L_shem = _)
    cases L.wcs L_naemchen <;> cases L.wcs L_shem <;> simp [naemchen_latin1]
  have d1 : ¬ (NamedUtf8 L.charset ∧ NamedLatin1 L.charset) := by
    rw [← n1, ← n2]
    rintro ⟨h, h'⟩
    rw [h] at h'
    revert h'
    decide
  have d2 : ¬ (ActsUtf8 L.wcs ∧ ActsLatin1 L.wcs) := by
    rw [← a1, ← a2]
    rintro ⟨⟨h, -⟩, h', -⟩
    rw [h] at h'
    revert h'
    decide
  unfold determine_current_charset_kind Honest
  rw [← n1, ← n2] at d1
  rw [← a1, ← a2] at d2
  rw [← n1, ← n2, ← a1, ← a2]
  exact kinds d1 d2

/-- What the installed locales and the library under them have to be. -/
def Right (u l : List Check) (L : Loc) : Prop :=
  Honest L.charset L.wcs ∧ (NamedUtf8 L.charset → ∀ c ∈ u, Meets L c) ∧
    (NamedLatin1 L.charset → ∀ c ∈ l, Meets L c)

private theorem loop_spec {u l : List Check} (hu : ∀ c ∈ u, c.Plain) (hl : ∀ c ∈ l, c.Plain) :
    ∀ {locs : List (Option Loc)},
    (∀ L, some L ∈ locs → LookSets L.lookup_ul ∧ LookSets L.to_unicode_lzlz) →
    ∀ us ls n, (mainLoop u l locs us ls n = .val none ∧ ¬ ∀ L, some L ∈ locs → Right u l L) ∨
      ∃ us' ls' m, mainLoop u l locs us ls n = .val (some (us', ls', m)) ∧ n ≤ m ∧
        (us' = true ↔ us = true ∨ ∃ L, some L ∈ locs ∧ NamedUtf8 L.charset) ∧
        (m = n ↔ ∀ L, some L ∈ locs → Right u l L) := by
  intro locs
  induction locs with
  | nil =>
    intro _ us ls n
    exact .inr ⟨us, ls, n, rfl, by omega, by simp, by simp⟩
  | cons x r ih =>
    intro hs us ls n
    have ih' := ih fun L hL => hs L (by simp [hL])
    cases x with
    | none =>
      simpa [mainLoop] using ih' us ls n
    | some L =>
      have hL := hs L (by simp)
      obtain ⟨k0, k1, k2⟩ := determine_spec L
      have hd : ¬ (NamedUtf8 L.charset ∧ NamedLatin1 L.charset) := by
        rintro ⟨h, h'⟩
        unfold NamedUtf8 at h
        unfold NamedLatin1 at h'
        rw [h] at h'
        revert h'
        decide
      unfold mainLoop
      cases hk : determine_current_charset_kind L with
      | none =>
        refine .inl ⟨rfl, fun h => k0.mp hk (h L (by simp)).1⟩
      | some k =>
        cases k with
        | utf8 =>
          obtain ⟨g1, g2⟩ := k1.mp hk
          have hR : Right u l L ↔ ∀ c ∈ u, Meets L c :=
            ⟨fun h => h.2.1 g2, fun h => ⟨g1, fun _ => h, fun h' => absurd ⟨g2, h'⟩ hd⟩⟩
          obtain ⟨m, h1, h2, h3⟩ := step_checks hL.1 hL.2 hu n
          simp only [h1, bind, Out.bind]
          rcases ih' true ls m with ⟨h4, h5⟩ | ⟨us', ls', m', h4, h5, h6, h7⟩
          · exact .inl ⟨h4, fun h => h5 fun L' hL' => h L' (by simp [hL'])⟩
          · refine .inr ⟨us', ls', m', h4, by omega, ?_, ?_⟩
            · rw [h6]
              constructor
              · exact fun _ => .inr ⟨L, by simp, g2⟩
              · exact fun _ => .inl rfl
            · have : (∀ L', some L' ∈ some L :: r → Right u l L') ↔
                  Right u l L ∧ ∀ L', some L' ∈ r → Right u l L' := by
                simp only [List.mem_cons, Option.some.injEq]
                constructor
                · exact fun h => ⟨h L (.inl rfl), fun L' h' => h L' (.inr h')⟩
                · rintro ⟨h, h'⟩ L' (rfl | hL')
                  · exact h
                  · exact h' L' hL'
              rw [this, hR, ← h3, ← h7]
              omega
        | latin1 =>
          obtain ⟨g1, g2⟩ := k2.mp hk
          have hR : Right u l L ↔ ∀ c ∈ l, Meets L c :=
            ⟨fun h => h.2.2 g2, fun h => ⟨g1, fun h' => absurd ⟨h', g2⟩ hd, fun _ => h⟩⟩
          obtain ⟨m, h1, h2, h3⟩ := step_checks hL.1 hL.2 hl n
          simp only [h1, bind, Out.bind]
          rcases ih' us true m with ⟨h4, h5⟩ | ⟨us', ls', m', h4, h5, h6, h7⟩
          · exact .inl ⟨h4, fun h => h5 fun L' hL' => h L' (by simp [hL'])⟩
          · refine .inr ⟨us', ls', m', h4, by omega, ?_, ?_⟩
            · rw [h6]
              constructor
              · rintro (h | ⟨L', h, h'⟩)
                · exact .inl h
                · exact .inr ⟨L', by simp [h], h'⟩
              · rintro (h | ⟨L', h, h'⟩)
                · exact .inl h
                · simp only [List.mem_cons, Option.some.injEq] at h
                  rcases h with rfl | h
                  · exact absurd ⟨h', g2⟩ hd
                  · exact .inr ⟨L', h, h'⟩
            · have : (∀ L', some L' ∈ some L :: r → Right u l L') ↔
                  Right u l L ∧ ∀ L', some L' ∈ r → Right u l L' := by
                simp only [List.mem_cons, Option.some.injEq]
                constructor
                · exact fun h => ⟨h L (.inl rfl), fun L' h' => h L' (.inr h')⟩
                · rintro ⟨h, h'⟩ L' (rfl | hL')
                  · exact h
                  · exact h' L' hL'
              rw [this, hR, ← h3, ← h7]
              omega
        | neither =>
          have g0 : Honest L.charset L.wcs := Classical.byContradiction fun h => by
            rw [k0.mpr h] at hk; cases hk
          have g1 : ¬ NamedUtf8 L.charset := fun h => by rw [k1.mpr ⟨g0, h⟩] at hk; cases hk
          have g2 : ¬ NamedLatin1 L.charset := fun h => by rw [k2.mpr ⟨g0, h⟩] at hk; cases hk
          have hR : Right u l L := ⟨g0, fun h => absurd h g1, fun h => absurd h g2⟩
          have e : (∀ L', some L' ∈ some L :: r → Right u l L') ↔
              ∀ L', some L' ∈ r → Right u l L' := by
            simp only [List.mem_cons, Option.some.injEq]
            constructor
            · exact fun h L' h' => h L' (.inr h')
            · rintro h' L' (rfl | hL')
              · exact hR
              · exact h' L' hL'
          rw [e]
          rcases ih' us ls n with ⟨h4, h5⟩ | ⟨us', ls', m', h4, h5, h6, h7⟩
          · exact .inl ⟨h4, h5⟩
          · refine .inr ⟨us', ls', m', h4, h5, ?_, h7⟩
            rw [h6]
            constructor
            · rintro (h | ⟨L', h, h'⟩)
              · exact .inl h
              · exact .inr ⟨L', by simp [h], h'⟩
            · rintro (h | ⟨L', h, h'⟩)
              · exact .inl h
              · simp only [List.mem_cons, Option.some.injEq] at h
                rcases h with rfl | h
                · exact absurd h' g1
                · exact .inr ⟨L', h, h'⟩

/-- C96: for functions that set their output parameter when they succeed, tests/test-glibc.c ends with 0
exactly when a locale with UTF-8 is installed, every locale installed does as the name of its charset
says, and under those with UTF-8 and those with Latin-1 all the calls give what they should; and with 1
otherwise. -/
theorem C96_status {u l : List Check} (hu : ∀ c ∈ u, c.Plain) (hl : ∀ c ∈ l, c.Plain)
    {locs : List (Option Loc)}
    (hs : ∀ L, some L ∈ locs → LookSets L.lookup_ul ∧ LookSets L.to_unicode_lzlz) :
    ∃ c, glibcMain u l locs = .val c ∧ (c = 0 ∨ c = 1) ∧
      (c = 0 ↔ (∃ L, some L ∈ locs ∧ NamedUtf8 L.charset) ∧ ∀ L, some L ∈ locs → Right u l L) := by
  unfold glibcMain
  rcases loop_spec hu hl hs false false 0 with ⟨h1, h2⟩ | ⟨us, ls, m, h1, _, h3, h4⟩
  · refine ⟨1, by simp [h1, bind, Out.bind, pure], .inr rfl, ?_⟩
    simp only [Nat.one_ne_zero, false_iff]
    exact fun h => h2 h.2
  · simp only [Bool.false_eq_true, false_or] at h3
    rw [← h3, ← h4, h1]
    by_cases hm : m = 0 <;> cases us <;> cases ls <;> simp [bind, Out.bind, pure, hm]

/-! ### The library -/

/-- The calls of `idn2_to_unicode_lzlz` in `run_utf8_tests` and `run_latin1_tests` that are to succeed,
by code points; test-glibc.c:203-217, 237-249. -/
def unicodeRows : List (List Nat × List Nat) :=
  [(ascii "non-idn-cname.example", ascii "non-idn-cname.example"),
   (ascii "non-idn.example", ascii "non-idn.example"),
   (ascii "non-idn-name.example", ascii "non-idn-name.example"),
   (ascii "xn--1-qic9a.example", [0x5E9, 0x5DD] ++ ascii "1.example"),
   (ascii "xn--anderes-nmchen-eib.example", ascii "anderes-n" ++ [0xE4] ++ ascii "mchen.example"),
   (ascii "xn--bue-6ka.example", ascii "bu" ++ [0xDF] ++ ascii "e.example"),
   (ascii "xn--iebx.example", [0x5E9, 0x5DD] ++ ascii ".example"),
   (ascii "xn--nmchen-bua.example", ascii "n" ++ [0xE4] ++ ascii "mchen.example"),
   (ascii "xn--nmchen_zwo-q5a.example", ascii "n" ++ [0xE4] ++ ascii "mchen_zwo.example")]

/-- The calls that are to fail under either; test-glibc.c:219-220, 252-253. -/
def badRows : List (List Nat) := [ascii "xn---.example", ascii "xn--x.example"]

private theorem rows_8z8z :
    (∀ r ∈ unicodeRows, (idn2_to_unicode_8z8z (some r.1) (some (.old 0)) 0 : Out _) =
      .val (none, some (.buf 0 (utf8s r.2)))) ∧
    (∀ s ∈ badRows, (idn2_to_unicode_8z8z (some s) (some (.old 0)) 0 : Out _) =
      .val (some .punycodeBadInput, some (.old 0))) := by decide +kernel

/-- The library under a locale. -/
def unicodeOf (E : Env) : Spec.TestPrograms.Look := fun s c f =>
  match (idn2_to_unicode_lzlz E s c f : Out _) with
  | .val r => r
  | .ub => (some .malloc, c)

private theorem lzlz_gives {E : Env} {s u n : List Nat} (h1 : E.U.fromLocale s = some s)
    (h2 : (idn2_to_unicode_8z8z (some s) (some (.old 0)) 0 : Out _) = .val (none, some (.buf 0 u)))
    (h3 : E.U.toLocale u = some n) : Gives (unicodeOf E) s n := by
  refine ⟨0, ?_⟩
  simp [unicodeOf, idn2_to_unicode_lzlz, idn2_to_unicode_8zlz, h1, h2, h3, bind, Out.bind, pure, libConv,
    malloc, touch, cfree]
  rfl

private theorem lzlz_fails {E : Env} {s u : List Nat} (h1 : E.U.fromLocale s = some s)
    (h2 : (idn2_to_unicode_8z8z (some s) (some (.old 0)) 0 : Out _) = .val (none, some (.buf 0 u)))
    (h3 : E.U.toLocale u = none) : Fails (unicodeOf E) s .encodingError := by
  simp [Fails, unicodeOf, idn2_to_unicode_lzlz, idn2_to_unicode_8zlz, h1, h2, h3, bind, Out.bind, pure,
    libConv, malloc, touch, cfree]
  rfl

private theorem lzlz_error {E : Env} {s : List Nat} {e : Rc} {c : Option Cell}
    (h1 : E.U.fromLocale s = some s)
    (h2 : (idn2_to_unicode_8z8z (some s) (some (.old 0)) 0 : Out _) = .val (some e, c)) :
    Fails (unicodeOf E) s e := by
  simp [Fails, unicodeOf, idn2_to_unicode_lzlz, idn2_to_unicode_8zlz, h1, h2, bind, Out.bind, pure,
    libConv, malloc, touch, cfree]
  rfl

/-- C96: whatever the tables, the library does to the calls of `idn2_to_unicode_lzlz` what the program
asks for, where the locale's encoding is UTF-8. -/
theorem C96_utf8_library {E : Env} (h1 : ∀ s, WellFormed s → E.U.fromLocale s = some s)
    (h2 : ∀ s, WellFormed s → E.U.toLocale s = some s) :
    (∀ r ∈ unicodeRows, Gives (unicodeOf E) r.1 (utf8s r.2)) ∧
    ∀ s ∈ badRows, Fails (unicodeOf E) s .punycodeBadInput := by
  have w1 : ∀ r ∈ unicodeRows, (∀ c ∈ r.1, isScalar c) ∧ (∀ c ∈ r.2, isScalar c) ∧ utf8s r.1 = r.1 := by
    decide +kernel
  have w2 : ∀ s ∈ badRows, (∀ c ∈ s, isScalar c) ∧ utf8s s = s := by decide +kernel
  constructor
  · intro r hr
    obtain ⟨a, b, c⟩ := w1 r hr
    exact lzlz_gives (h1 _ ⟨r.1, a, c.symm⟩) (rows_8z8z.1 r hr) (h2 _ ⟨r.2, b, rfl⟩)
  · intro s hs
    obtain ⟨a, c⟩ := w2 s hs
    exact lzlz_error (h1 _ ⟨s, a, c.symm⟩) (rows_8z8z.2 s hs)

/-- C96: and likewise where the locale's encoding is Latin-1: the rows with Hebrew letters are refused. -/
theorem C96_latin1_library {E : Env} (h1 : ∀ s, (∀ c ∈ s, c < 0x80) → E.U.fromLocale s = some s)
    (h2 : ∀ u, (∀ c ∈ u, c < 0x100) → E.U.toLocale (utf8s u) = some u)
    (h3 : ∀ u c, c ∈ u → 0x100 ≤ c → E.U.toLocale (utf8s u) = none) :
    (∀ r ∈ unicodeRows, (∀ c ∈ r.2, c < 0x100) → Gives (unicodeOf E) r.1 r.2) ∧
    (∀ r ∈ unicodeRows, (∃ c ∈ r.2, 0x100 ≤ c) → Fails (unicodeOf E) r.1 .encodingError) ∧
    ∀ s ∈ badRows, Fails (unicodeOf E) s .punycodeBadInput := by
  have w1 : ∀ r ∈ unicodeRows, ∀ c ∈ r.1, c < 0x80 := by decide +kernel
  have w2 : ∀ s ∈ badRows, ∀ c ∈ s, c < 0x80 := by decide +kernel
  refine ⟨?_, ?_, ?_⟩
  · exact fun r hr h => lzlz_gives (h1 _ (w1 r hr)) (rows_8z8z.1 r hr) (h2 _ h)
  · rintro r hr ⟨c, hc, h⟩
    exact lzlz_fails (h1 _ (w1 r hr)) (rows_8z8z.1 r hr) (h3 _ c hc h)
  · exact fun s hs => lzlz_error (h1 _ (w2 s hs)) (rows_8z8z.2 s hs)

/-- The library under a locale. -/
def lookupOf (E : Env) : Spec.TestPrograms.Look := fun s c f =>
  match (idn2_lookup_ul E s c f : Out _) with
  | .val r => r
  | .ub => (some .malloc, c)

/-- C96 speaks of the library: it sets the output parameter when it succeeds. -/
theorem C96_sets_library {E : Env} {D : Data} (W : World E D) (U : E.U.Locale) :
    LookSets (lookupOf E) ∧ LookSets (unicodeOf E) := by
  constructor
  · intro s c f h0 h
    unfold lookupOf idn2_lookup_ul at h ⊢
    cases hs : E.U.fromLocale s with
    | none => simp [hs, bind, Out.bind, pure, libConv, malloc, cfree] at h
    | some t =>
      have ht := (U.from_ok s t hs).2
      obtain ⟨-, k1, -, k2⟩ := TestPrograms.C95_register_library W
      have k3 := k2 t (some c) (f ||| IDN2_NFC_INPUT) ht
      have k4 := k1 t c (f ||| IDN2_NFC_INPUT) ht
      simp [hs, bind, Out.bind, pure, libConv, malloc, cfree, touch, k3] at h ⊢
      exact k4 h
  · intro s c f h0 h
    unfold unicodeOf idn2_to_unicode_lzlz idn2_to_unicode_8zlz at h ⊢
    cases hs : E.U.fromLocale s with
    | none => simp [hs, bind, Out.bind, pure, libConv, malloc, cfree] at h
    | some t =>
      cases h8 : (idn2_to_unicode_8z8z (some t) (some (.old 0)) f : Out _) with
      | ub => simp [hs, h8, bind, Out.bind, pure, libConv, malloc, cfree, touch] at h
      | val r =>
        obtain ⟨rc, o⟩ := r
        cases rc with
        | some e => simp [hs, h8, bind, Out.bind, pure, libConv, malloc, cfree, touch] at h
        | none =>
          cases o with
          | none => simp [hs, h8, bind, Out.bind, pure, libConv, malloc, cfree, touch] at h
          | some o =>
            cases o <;> simp [hs, h8, bind, Out.bind, pure, libConv, malloc, cfree, touch] at h ⊢
            rename_i p u
            cases hu : E.U.toLocale u with
            | none => simp [hu] at h
            | some n => exact ⟨0, n, rfl⟩

/-! ### Cases -/

/-- A locale with UTF-8 in which names are left alone, and one which says so but is not. -/
private def good : Loc where
  charset := utf8Name
  wcs := fun u => some (utf8s u)
  lookup_ul := fun s c _ => (none, (s.bind fun s => c.map fun _ => .buf 1 s))
  to_unicode_lzlz := fun s c _ => (none, (s.bind fun s => c.map fun _ => .buf 1 s))

private def bad : Loc := { good with wcs := fun _ => none }

example : glibcMain [.lookup [0x61] [0x61], .unicode [0x62] [0x62]] [] [none, some good] = .val 0 := by decide
example : glibcMain [.lookup [0x61] [0x62]] [] [some good] = .val 1 := by decide
example : glibcMain [.failure [0x61] .punycodeBadInput] [] [some good] = .val 1 := by decide
example : glibcMain [] [] [some good, some bad] = .val 1 := by decide
example : glibcMain [] [] [none] = .val 1 := by decide

end TestGlibc

end Idn2
