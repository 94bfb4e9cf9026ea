import Verif.Spec.Cli
import Verif.Props.Heap
import Verif.Props.LookupNfc
import Verif.Props.ToUnicode

/-
The command line tool: closed forms of the conversions, the loops over arguments and lines.
-/

namespace Idn2
open Spec

/-! ### Flags -/

theorem cliFlags_eq (o : Opts) : cliFlags o ||| 1 = toolFlags o := by
  have h : ∀ a b c d e : Bool,
      cliFlags { tr46t := a, tr46nt := b, noTr46 := c, std3 := d, noRoundtrip := e } ||| 1 =
        toolFlags { tr46t := a, tr46nt := b, noTr46 := c, std3 := d, noRoundtrip := e } := by decide
  exact h o.tr46t o.tr46nt o.noTr46 o.std3 o.noRoundtrip

theorem toolFlags_or (o : Opts) : toolFlags o ||| 1 = toolFlags o := by
  have h : ∀ a b c d e : Bool,
      toolFlags { tr46t := a, tr46nt := b, noTr46 := c, std3 := d, noRoundtrip := e } ||| 1 =
        toolFlags { tr46t := a, tr46nt := b, noTr46 := c, std3 := d, noRoundtrip := e } := by decide
  exact h o.tr46t o.tr46nt o.noTr46 o.std3 o.noRoundtrip

theorem toolFlags_ok (o : Opts) : ¬ Conflict (toolFlags o) ∧ (toolFlags o).testBit 0 = true := by
  have h : ∀ a b c d e : Bool,
      ¬ Conflict (toolFlags { tr46t := a, tr46nt := b, noTr46 := c, std3 := d, noRoundtrip := e }) ∧
        (toolFlags { tr46t := a, tr46nt := b, noTr46 := c, std3 := d, noRoundtrip := e }).testBit 0 =
          true := by decide
  exact h o.tr46t o.tr46nt o.noTr46 o.std3 o.noRoundtrip

/-! ### Conversions -/

/-- The outcome of the call. -/
def convP (E : Env) (D : Data) (o : Opts) (flags : Nat) (s : List Nat) : Res (List Nat) :=
  if o.register then regUlP E (some s) none flags
  else if o.decode then uniLocLocP E s
  else ulP E D flags s

theorem convert_out {E : Env} {D : Data} (W : World E D) (L : E.U.Locale) (o : Opts) (flags : Nat)
    (s : List Nat) : convP E D o flags s ≠ .ub ∧ (convert E o s flags : Out _) =
      (retOf (some (.old 0)) (convP E D o flags s) >>= fun r => .val (r, tagOf o)) := by
  have h0 : ∀ t, E.U.fromLocale s = some t → 0 ∉ t := fun t ht => (L.from_ok s t ht).2
  unfold convP convert tagOf
  by_cases h1 : o.register = true
  · rw [if_pos h1, if_pos h1, if_pos h1]
    obtain ⟨a, b⟩ := regUlP_out W (ul := some s) (al := none) (Or.inl (by simp)) (some (.old 0)) flags
    refine ⟨a, ?_⟩
    rw [b]
    rfl
  · rw [if_neg h1, if_neg h1, if_neg h1]
    by_cases h2 : o.decode = true
    · rw [if_pos h2, if_pos h2, if_pos h2]
      obtain ⟨a, b⟩ := uniLocLocP_out E h0 (some (.old 0)) 0
      refine ⟨a, ?_⟩
      rw [b]
      rfl
    · rw [if_neg h2, if_neg h2, if_neg h2]
      obtain ⟨a, b⟩ := ulP_out W flags h0 (some (.old 0))
      refine ⟨a, ?_⟩
      rw [show (idn2_to_ascii_lz E (some s) (some (.old 0)) flags : Out _) =
        idn2_lookup_ul E (some s) (some (.old 0)) flags from rfl, b]
      rfl

theorem tri_convert {E : Env} {D : Data} (W : World E D) (L : E.U.Locale) (o : Opts) (flags : Nat)
    (s : List Nat) {F : Nat → Bool} {l : List Nat} :
    Tri F (convert E o s flags : HeapM _) l (fun r l' => r.2 = tagOf o ∧
      Ends F (convP E D o flags s) (some (.old 0)) l r.1 l') := by
  have h0 : ∀ t, E.U.fromLocale s = some t → 0 ∉ t := fun t ht => (L.from_ok s t ht).2
  unfold convP convert tagOf
  by_cases h1 : o.register = true
  · rw [if_pos h1, if_pos h1, if_pos h1]
    exact Tri.bind (tri_register_ul W (Or.inl (by simp)) _ _) fun _ _ _ h => Tri.pure ⟨rfl, h⟩
  · rw [if_neg h1, if_neg h1, if_neg h1]
    by_cases h2 : o.decode = true
    · rw [if_pos h2, if_pos h2, if_pos h2]
      exact Tri.bind (tri_lzlz E h0 _ _) fun _ _ _ h => Tri.pure ⟨rfl, h⟩
    · rw [if_neg h2, if_neg h2, if_neg h2]
      exact Tri.bind (tri_lookup_ul W flags h0 _) fun _ _ _ h => Tri.pure ⟨rfl, h⟩

theorem uni8P_ok_iff {t n : List Nat} : uni8P t = .ok n ↔
    ∃ v, ToUnicode t v ∧ (∀ c ∈ v, isScalar c) ∧ n = utf8s v := by
  unfold uni8P
  constructor
  · intro h
    cases hu : uniP t with
    | ub => rw [hu] at h; cases h
    | err e => rw [hu] at h; cases h
    | ok v =>
      rw [hu, Res.bind_ok] at h
      refine ⟨v, (C49_to_unicode_spec t v).mp (ToUniOk_iff.mpr hu), ?_⟩
      by_cases hv : ∀ c ∈ v, isScalar c
      · rw [u8Encode_zero hv] at h
        injection h with h
        exact ⟨hv, h.symm⟩
      · rw [u8Encode_zero_none hv] at h
        cases h
  · rintro ⟨v, h1, h2, rfl⟩
    rw [ToUniOk_iff.mp ((C49_to_unicode_spec t v).mpr h1), Res.bind_ok, u8Encode_zero h2]

theorem uni8P_err {t : List Nat} {e : Rc} (h : uni8P t = .err e) :
    ToUnicodeErr t e ∨ ∃ v, ToUnicode t v ∧ (¬ ∀ c ∈ v, isScalar c) ∧ e = .encodingError := by
  unfold uni8P at h
  cases hu : uniP t with
  | ub => rw [hu] at h; cases h
  | err e' =>
    rw [hu] at h
    injection h with h
    subst h
    left
    exact (C49_first_error t e').mp (ToUniErr_iff.mpr hu)
  | ok v =>
    rw [hu, Res.bind_ok] at h
    right
    refine ⟨v, (C49_to_unicode_spec t v).mp (ToUniOk_iff.mpr hu), ?_⟩
    by_cases hv : ∀ c ∈ v, isScalar c
    · rw [u8Encode_zero hv] at h
      cases h
    · rw [u8Encode_zero_none hv] at h
      injection h with h
      exact ⟨hv, h.symm⟩

/-- What a conversion with the tool's flags amounts to. -/
theorem convP_ok_iff {E : Env} {D : Data} (W : World E D) (L : E.U.Locale) {o : Opts} {flags : Nat}
    (hf : flags ||| 1 = toolFlags o) {s n : List Nat} :
    convP E D o flags s = .ok n ↔ Converts D E.U o s n := by
  unfold convP
  obtain ⟨hc, hb0⟩ := toolFlags_ok o
  cases hr : o.register with
  | true =>
    simp only [↓reduceIte, regUlP, show IDN2_NFC_INPUT = 1 from rfl, hf]
    constructor
    · intro h
      cases ht : E.U.fromLocale s with
      | none => rw [ht] at h; cases h
      | some t =>
        rw [ht] at h
        exact .register t hr ht ((C51_register_norm W hb0).mp (RegOk_ul.mpr h))
    · rintro (⟨t, _, h1, h2⟩ | ⟨_, _, h, _⟩ | ⟨_, h, _⟩ | ⟨_, h, _⟩)
      · rw [h1]
        exact RegOk_ul.mp ((C51_register_norm W hb0).mpr h2)
      all_goals rw [hr] at h; cases h
  | false =>
    cases hd : o.decode with
    | true =>
      simp only [↓reduceIte, uniLocLocP, Bool.false_eq_true]
      constructor
      · intro h
        cases ht : E.U.fromLocale s with
        | none => rw [ht] at h; cases h
        | some t =>
          rw [ht] at h
          simp only [uniLocP] at h
          cases hu : uni8P t with
          | ub => rw [hu] at h; cases h
          | err e => rw [hu] at h; cases h
          | ok x =>
            obtain ⟨v, h1, h2, rfl⟩ := uni8P_ok_iff.mp hu
            rw [hu, Res.bind_ok] at h
            cases hl : E.U.toLocale (utf8s v) with
            | none => rw [hl] at h; cases h
            | some y =>
              rw [hl] at h
              injection h with h
              subst h
              exact .decode t v hr hd ht h1 h2 hl
      · rintro (⟨_, h, _⟩ | ⟨t, v, _, _, h1, h2, h3, h4⟩ | ⟨_, _, h, _⟩ | ⟨_, _, h, _⟩)
        · rw [hr] at h; cases h
        · rw [h1]
          simp only [uniLocP]
          rw [uni8P_ok_iff.mpr ⟨v, h2, h3, rfl⟩, Res.bind_ok, h4]
        all_goals rw [hd] at h; cases h
    | false =>
      simp only [↓reduceIte, ulP, Bool.false_eq_true, show IDN2_NFC_INPUT = 1 from rfl, hf]
      constructor
      · intro h
        cases ht : E.U.fromLocale s with
        | none => rw [ht] at h; cases h
        | some t =>
          rw [ht] at h
          obtain ⟨_, h0⟩ := L.from_ok s t ht
          have hok := (LookupOk_iff W h0).mpr h
          cases h6 : (toolFlags o).testBit 6 with
          | false =>
            obtain ⟨_, u, h1, rfl, h2⟩ := (C48_lookup_spec W h0 (by rw [h6]; simp)).mp hok
            exact .lookup u hr hd h1 ht h6 h2
          | true =>
            obtain ⟨_, u, h1, rfl, h2⟩ := (C48_lookup_nfc W h0 hb0 h6).mp hok
            exact .lookupNfc u hr hd h1 ht h6 h2
      · rintro (⟨_, h, _⟩ | ⟨_, _, _, h, _⟩ | ⟨u, _, _, h1, h2, h3, h4⟩ | ⟨u, _, _, h1, h2, h3, h4⟩)
        · rw [hr] at h; cases h
        · rw [hd] at h; cases h
        · rw [h2]
          have h0 := (L.from_ok s _ h2).2
          exact (LookupOk_iff W h0).mp
            ((C48_lookup_spec W h0 (by rw [h3]; simp)).mpr ⟨hc, u, h1, rfl, h4⟩)
        · rw [h2]
          have h0 := (L.from_ok s _ h2).2
          exact (LookupOk_iff W h0).mp ((C48_lookup_nfc W h0 hb0 h3).mpr ⟨hc, u, h1, rfl, h4⟩)

theorem convP_err {E : Env} {D : Data} (W : World E D) (L : E.U.Locale) {o : Opts} {flags : Nat}
    (hf : flags ||| 1 = toolFlags o) {s : List Nat} {e : Rc}
    (h : convP E D o flags s = .err e) : Refuses D E.U o s e := by
  unfold convP at h
  obtain ⟨hc, hb0⟩ := toolFlags_ok o
  cases hr : o.register with
  | true =>
    rw [hr] at h
    simp only [↓reduceIte, regUlP, show IDN2_NFC_INPUT = 1 from rfl, hf] at h
    cases ht : E.U.fromLocale s with
    | none => rw [ht] at h; injection h with h; subst h; exact .locale ht
    | some t =>
      rw [ht] at h
      refine .register t e hr ht ?_
      rcases C51_register_error_norm W hb0 (RegErr_ul.mpr h) with h | ⟨h1, h2⟩ | h
      · exact Or.inl h
      · exact Or.inr (Or.inl ⟨fun ⟨u, g1, g2⟩ => h1 u g1 g2, h2⟩)
      · exact Or.inr (Or.inr h)
  | false =>
    cases hd : o.decode with
    | true =>
      rw [hr, hd] at h
      simp only [↓reduceIte, uniLocLocP, Bool.false_eq_true] at h
      cases ht : E.U.fromLocale s with
      | none => rw [ht] at h; injection h with h; subst h; exact .locale ht
      | some t =>
        rw [ht] at h
        simp only [uniLocP] at h
        cases hu : uni8P t with
        | ub => rw [hu] at h; cases h
        | err e' =>
          rw [hu] at h
          injection h with h
          subst h
          rcases uni8P_err hu with h | ⟨v, h1, h2, rfl⟩
          · exact .decode t _ hr hd ht h
          · exact .decodeUtf8 t v hr hd ht h1 h2
        | ok x =>
          obtain ⟨v, h1, h2, rfl⟩ := uni8P_ok_iff.mp hu
          rw [hu, Res.bind_ok] at h
          cases hl : E.U.toLocale (utf8s v) with
          | none => rw [hl] at h; injection h with h; subst h; exact .decodeLocale t v hr hd ht h1 h2 hl
          | some y => rw [hl] at h; cases h
    | false =>
      rw [hr, hd] at h
      simp only [↓reduceIte, ulP, Bool.false_eq_true, show IDN2_NFC_INPUT = 1 from rfl, hf] at h
      cases ht : E.U.fromLocale s with
      | none => rw [ht] at h; injection h with h; subst h; exact .locale ht
      | some t =>
        rw [ht] at h
        obtain ⟨⟨u, hu, rfl⟩, h0⟩ := L.from_ok s t ht
        have hu0 : 0 ∉ u := fun hz => h0 ((utf8s_zero_iff hu).mpr hz)
        have he := (LookupErr_iff W h0).mpr h
        cases h6 : (toolFlags o).testBit 6 with
        | false =>
          exact .lookup u e hr hd hu ht h6
            (C52_lookup_error W hu hu0 (by rw [h6]; simp) hc he)
        | true => exact .lookupNfc u e hr hd hu ht h6 (C52_lookup_error_nfc W hu hu0 hb0 h6 hc he)

theorem convP_zero {E : Env} {D : Data} (W : World E D) (L : E.U.Locale) {o : Opts} {flags : Nat}
    (hf : flags ||| 1 = toolFlags o) {s n : List Nat} (h : convP E D o flags s = .ok n) : 0 ∉ n := by
  have h' := (convP_ok_iff W L hf).mp h
  have hlook : ∀ u, E.U.fromLocale s = some u → convP E D o flags s = ulP E D flags s → 0 ∉ n := by
    intro u hu hk hz
    rw [hk, ulP, hu] at h
    have h0 := (L.from_ok s u hu).2
    have := C08_lookup_ascii W h0 ((LookupOk_iff W h0).mpr h) 0 hz
    omega
  rcases h' with ⟨t, hr, ht, hreg⟩ | ⟨t, v, _, _, _, _, _, hl⟩ | ⟨u, h1, h2, _, h3, _⟩ |
    ⟨u, h1, h2, _, h3, _⟩
  · have h0 := (L.from_ok s t ht).2
    rcases hreg with ⟨_, _, rfl⟩ | ⟨q, u, hq, _, rfl, hn, _, rfl, _⟩
    · exact h0
    · have hq0 : 0 ∉ q := fun hz => h0 ((utf8s_zero_iff hq).mpr hz)
      have hu0 : 0 ∉ u := by
        rcases hn with ⟨_, rfl⟩ | ⟨_, hn⟩
        · exact hq0
        · exact W.uni.nfc_nosep q u 0 (Or.inl rfl) hq0 hn
      intro hz
      rcases List.mem_append.mp hz with hz | hz
      · revert hz; decide
      · rcases encode_mem hz with ⟨hz, _⟩ | hz
        · exact hu0 hz
        · revert hz; unfold isLowerLDH; omega
  · exact L.to_ok _ _ hl
  · exact hlook _ h3 (by unfold convP; rw [h1, h2]; rfl)
  · exact hlook _ h3 (by unfold convP; rw [h1, h2]; rfl)

/-! ### Newlines -/

theorem chop_noNewline (s : List Nat) : NoNewline s (chop s) := by
  unfold chop NoNewline
  rcases List.eq_nil_or_concat s with rfl | ⟨l, b, rfl⟩
  · right; simp
  · rw [List.concat_eq_append]
    by_cases hb : b = 0x0A
    · subst hb
      left
      rw [if_pos (by simp)]
      simp
    · right
      rw [if_neg (by simp [hb])]
      refine ⟨rfl, ?_⟩
      rintro ⟨r, hr⟩
      have := congrArg List.getLast? hr
      simp at this
      exact hb this.symm

theorem noNewline_unique {a t t' : List Nat} (h : NoNewline a t) (h' : NoNewline a t') : t = t' := by
  rcases h with h | ⟨h, g⟩ <;> rcases h' with h' | ⟨h', g'⟩
  · rw [h] at h'
    exact (List.append_cancel_right h')
  · exact absurd ⟨t, h.symm⟩ g'
  · exact absurd ⟨t', h'.symm⟩ g
  · rw [← h, ← h']

theorem chop_eq {s t : List Nat} (h : NoNewline s t) : chop s = t :=
  noNewline_unique (chop_noNewline s) h

theorem getline_nonl {l : List Nat} (h : 0x0A ∉ l) : getline l = (l, []) := by
  induction l with
  | nil => rfl
  | cons c r ih =>
    rw [List.mem_cons, not_or] at h
    unfold getline
    rw [if_neg (fun hc => h.1 hc.symm), ih h.2]

theorem getline_cons {l t : List Nat} (h : 0x0A ∉ l) : getline (l ++ 0x0A :: t) = (l ++ [0x0A], t) := by
  induction l with
  | nil => rfl
  | cons c r ih =>
    rw [List.mem_cons, not_or] at h
    rw [List.cons_append]
    unfold getline
    rw [if_neg (fun hc => h.1 hc.symm), ih h.2]
    rfl

theorem noNewline_self {l : List Nat} (h : 0x0A ∉ l) : NoNewline l l :=
  Or.inr ⟨rfl, fun ⟨r, hr⟩ => h (by rw [← hr]; simp)⟩

theorem mem_takeWhile_sub {l : List Nat} {p : Nat → Bool} {c : Nat} (h : c ∈ l.takeWhile p) : c ∈ l :=
  (List.takeWhile_prefix p).subset h

theorem takeWhile_line {l : List Nat} (h : 0x0A ∉ l) :
    NoNewline ((l ++ [0x0A]).takeWhile (· != 0)) (l.takeWhile (· != 0)) := by
  by_cases hz : 0 ∈ l
  · have : (l ++ [0x0A]).takeWhile (· != 0) = l.takeWhile (· != 0) := by
      clear h
      induction l with
      | nil => cases hz
      | cons c r ih =>
        by_cases hc : c = 0
        · subst hc; rfl
        · have hr : 0 ∈ r := by
            rcases List.mem_cons.mp hz with h | h
            · exact absurd h.symm hc
            · exact h
          rw [List.cons_append, List.takeWhile_cons_of_pos (by simpa using hc),
            List.takeWhile_cons_of_pos (by simpa using hc), ih hr]
    rw [this]
    exact noNewline_self fun hc => h (mem_takeWhile_sub hc)
  · left
    rw [takeWhile_all hz, takeWhile_all]
    simpa using hz

theorem lines_exists (s : List Nat) : ∃ ls, TextLines s ls := by
  generalize hn : s.length = n
  induction n using Nat.strongRecOn generalizing s with
  | _ n ih =>
    by_cases h : 0x0A ∈ s
    · obtain ⟨l, t, rfl, hl⟩ := List.eq_append_cons_of_mem h
      obtain ⟨ls, hls⟩ := ih t.length (by rw [← hn]; simp; omega) t rfl
      exact ⟨_, .cons hl hls⟩
    · by_cases hs : s = []
      · subst hs; exact ⟨_, .nil⟩
      · exact ⟨_, .last hs h⟩

theorem lines_cases {s : List Nat} {ls : List (List Nat)} (h : TextLines s ls) :
    (s = [] ∧ ls = []) ∨ (s ≠ [] ∧ 0x0A ∉ s ∧ ls = [s]) ∨
      ∃ l t ls', 0x0A ∉ l ∧ s = l ++ 0x0A :: t ∧ ls = l :: ls' ∧ TextLines t ls' := by
  cases h with
  | nil => exact Or.inl ⟨rfl, rfl⟩
  | last h1 h2 => exact Or.inr (Or.inl ⟨h1, h2, rfl⟩)
  | cons h1 h2 => exact Or.inr (Or.inr ⟨_, _, _, h1, rfl, rfl, h2⟩)

theorem split_unique {l l' t t' : List Nat} (h : 0x0A ∉ l) (h' : 0x0A ∉ l')
    (he : l ++ 0x0A :: t = l' ++ 0x0A :: t') : l = l' ∧ t = t' := by
  have h1 := getline_cons (t := t) h
  rw [he, getline_cons h'] at h1
  injection h1 with h1 h2
  exact ⟨(List.append_cancel_right h1).symm, h2.symm⟩

theorem lines_unique {s : List Nat} {ls ls' : List (List Nat)} (h : TextLines s ls) (h' : TextLines s ls') :
    ls = ls' := by
  induction h generalizing ls' with
  | nil =>
    rcases lines_cases h' with ⟨_, rfl⟩ | ⟨h, _⟩ | ⟨_, _, _, _, h, _⟩
    · rfl
    · exact absurd rfl h
    · simp at h
  | last h1 h2 =>
    rcases lines_cases h' with ⟨h, _⟩ | ⟨_, _, rfl⟩ | ⟨l, t, _, _, rfl, _⟩
    · exact absurd h h1
    · rfl
    · simp at h2
  | cons h1 _ ih =>
    rcases lines_cases h' with ⟨h, _⟩ | ⟨_, h, _⟩ | ⟨l, t, ls2, g1, g2, rfl, g3⟩
    · simp at h
    · simp at h
    · obtain ⟨rfl, rfl⟩ := split_unique h1 g1 g2
      rw [ih g3]

/-! ### One string -/

/-- What processing the string `s` may end with. -/
def Step (D : Data) (U : Uni) (o : Opts) (S : Surround) (mal : Prop) (s : List Nat)
    (r : Io × Bool) : Prop :=
  ∃ d, NoReport d ∧ (o.debug = false → d = []) ∧
    ((∃ n, Prints D U o S s n ∧ r = (⟨n ++ [0x0A], d⟩, true)) ∨
      ∃ e, r = (⟨[], d ++ [.fail (tagOf o) (idn2_strerror e.code)]⟩, false) ∧
        ((Refuses D U o s e ∧ ∀ n, ¬ Prints D U o S s n) ∨ (mal ∧ e = .malloc)))

theorem noReport_nil : NoReport [] := fun _ _ h => by cases h

theorem noReport_append {a b : List Diag} (ha : NoReport a) (hb : NoReport b) : NoReport (a ++ b) :=
  fun t m h => (List.mem_append.mp h).elim (ha t m) (hb t m)

theorem noReport_mapIdx {l : List Nat} {f : Nat → Nat → Diag} (h : ∀ i c t m, f i c ≠ .fail t m) :
    NoReport (l.mapIdx f) := by
  intro t m hm
  obtain ⟨i, _, hi⟩ := List.mem_mapIdx.mp hm
  exact h _ _ _ _ hi

theorem prints_iff {D : Data} {U : Uni} {o : Opts} {S : Surround} {s n : List Nat}
    (h1 : s ≠ showW) (h2 : s ≠ showC) : Prints D U o S s n ↔ Converts D U o s n := by
  constructor
  · rintro (h | h | ⟨_, _, _, h⟩)
    · exact absurd h h1
    · exact absurd h h2
    · exact h
  · exact fun h => .converted n h1 h2 h

theorem hexdump_out (E : Env) (pre : String) (s : List Nat) :
    ∃ d, (hexdump E pre s : Out _) = .val d ∧ NoReport d := by
  have hb : NoReport (s.mapIdx fun i c => Diag.byte pre i (c &&& 0xFF)) :=
    noReport_mapIdx (by intros; simp)
  unfold hexdump libConv
  cases h : E.U.fromLocale s with
  | none => exact ⟨_, rfl, hb⟩
  | some u =>
    have ho : NoReport (if s ≠ u then u.mapIdx fun i c => Diag.utf8 pre i (c &&& 0xFF) else []) := by
      split
      · exact noReport_mapIdx (by intros; simp)
      · exact noReport_nil
    cases h' : u8Decode u with
    | none => exact ⟨_, by simp only [Out.malloc_eq, Out.bind_val, Out.pure_eq, Out.touch_eq, h']; rfl,
      noReport_append hb ho⟩
    | some v =>
      have hu : NoReport (v.mapIdx fun i c => Diag.ucs4 pre i c) := noReport_mapIdx (by intros; simp)
      exact ⟨_, by simp only [Out.malloc_eq, Out.bind_val, Out.pure_eq, Out.touch_eq, h'],
        noReport_append (noReport_append hb ho) hu⟩

theorem debugDump_out (E : Env) (o : Opts) (pre : String) (s : List Nat) :
    ∃ d, (debugDump E o pre s : Out _) = .val d ∧ NoReport d ∧ (o.debug = false → d = []) := by
  unfold debugDump
  cases h : o.debug with
  | false => exact ⟨[], rfl, noReport_nil, fun _ => rfl⟩
  | true =>
    obtain ⟨d, h1, h2⟩ := hexdump_out E pre s
    exact ⟨d, h1, h2, fun h => by cases h⟩

theorem process_out {E : Env} {D : Data} (W : World E D) (L : E.U.Locale) {o : Opts} (S : Surround)
    {flags : Nat} (hf : flags ||| 1 = toolFlags o) (buf : List Nat) :
    ∃ r, (process_input E o S buf flags : Out _) = .val r ∧
      Step D E.U o S False (chop (buf.takeWhile (· != 0))) r := by
  unfold process_input
  rw [cstr_takeWhile]
  simp only
  generalize chop (buf.takeWhile (· != 0)) = s
  by_cases h1 : s = showW
  · rw [if_pos h1]
    exact ⟨_, rfl, [], noReport_nil, fun _ => rfl, Or.inl ⟨_, .warranty h1, rfl⟩⟩
  rw [if_neg h1]
  by_cases h2 : s = showC
  · rw [if_pos h2]
    exact ⟨_, rfl, [], noReport_nil, fun _ => rfl, Or.inl ⟨_, .conditions h2, rfl⟩⟩
  rw [if_neg h2]
  obtain ⟨hne, hc⟩ := convert_out W L o flags s
  obtain ⟨d, hd1, hd2, hd3⟩ := debugDump_out E o "input" s
  obtain ⟨d', he1, he2, he3⟩ := debugDump_out E o "output" s
  unfold processText
  rw [hd1, Out.bind_val, hc]
  cases hp : convP E D o flags s with
  | ub => exact absurd hp hne
  | err e =>
    refine ⟨_, rfl, d, hd2, hd3, Or.inr ⟨e, rfl, Or.inl ⟨convP_err W L hf hp, fun n hn => ?_⟩⟩⟩
    rw [(convP_ok_iff W L hf).mpr ((prints_iff h1 h2).mp hn)] at hp
    cases hp
  | ok n =>
    refine ⟨(⟨n ++ [0x0A], d ++ d'⟩, true), ?_, d ++ d', noReport_append hd2 he2,
      fun h => by rw [hd3 h, he3 h]; rfl,
      Or.inl ⟨n, (prints_iff h1 h2).mpr ((convP_ok_iff W L hf).mp hp), rfl⟩⟩
    simp only [retOf, Out.bind_val, he1, Option.map_some, Out.touch_eq, Out.free_eq,
      cstr_append (convP_zero W L hf hp), Out.pure_eq]

/-! ### The loops -/

/-- What processing the strings `ts` may end with, after `io` has been written. -/
def Work (D : Data) (U : Uni) (o : Opts) (S : Surround) (mal : Prop) (ts : List (List Nat))
    (io : Io) (r : Io × Bool) : Prop :=
  ∃ done rest ns ds, ts = done ++ rest ∧ Each (Prints D U o S) done ns ∧
    r.1.out = io.out ++ ns.flatMap (· ++ [0x0A]) ∧ NoReport ds ∧ (o.debug = false → ds = []) ∧
    ((rest = [] ∧ r.2 = true ∧ r.1.err = io.err ++ ds) ∨
      ∃ t post e, rest = t :: post ∧ r.2 = false ∧
        r.1.err = io.err ++ ds ++ [.fail (tagOf o) (idn2_strerror e.code)] ∧
        ((Refuses D U o t e ∧ ∀ n, ¬ Prints D U o S t n) ∨ (mal ∧ e = .malloc)))

section
variable {D : Data} {U : Uni} {o : Opts} {S : Surround} {mal : Prop} {ts : List (List Nat)}
  {t : List Nat} {io d : Io} {r : Io × Bool}

theorem work_nil : Work D U o S mal [] io (io, true) :=
  ⟨[], [], [], [], rfl, .nil, by simp, noReport_nil, fun _ => rfl, Or.inl ⟨rfl, rfl, by simp⟩⟩

theorem work_go (h : Step D U o S mal t (d, true)) (hr : Work D U o S mal ts (io.app d) r) :
    Work D U o S mal (t :: ts) io r := by
  obtain ⟨g, g1, g2, ⟨n, g3, g4⟩ | ⟨e, g3, _⟩⟩ := h
  · injection g4 with g4 _
    subst g4
    obtain ⟨done, rest, ns, ds, h1, h2, h3, h4, h5, h6⟩ := hr
    refine ⟨t :: done, rest, n :: ns, g ++ ds, by rw [h1]; rfl, .cons g3 h2, ?_,
      noReport_append g1 h4, fun hd => by rw [g2 hd, h5 hd]; rfl, ?_⟩
    · rw [h3]
      simp [Io.app]
    · rcases h6 with ⟨k1, k2, k3⟩ | ⟨t', post, e, k1, k2, k3, k4⟩
      · exact Or.inl ⟨k1, k2, by rw [k3]; simp [Io.app]⟩
      · exact Or.inr ⟨t', post, e, k1, k2, by rw [k3]; simp [Io.app], k4⟩
  · injection g3 with _ g3
    cases g3

theorem work_stop (h : Step D U o S mal t (d, false)) : Work D U o S mal (t :: ts) io (io.app d, false) := by
  obtain ⟨g, g1, g2, ⟨n, _, g4⟩ | ⟨e, g3, g4⟩⟩ := h
  · injection g4 with _ g4
    cases g4
  · injection g3 with g3 _
    subst g3
    exact ⟨[], t :: ts, [], g, rfl, .nil, by simp [Io.app], g1, g2,
      Or.inr ⟨t, ts, e, rfl, rfl, by simp [Io.app], g4⟩⟩

end

theorem or_one {a b : Nat} (h : a ||| 1 = b) : (a ||| 1) ||| 1 = b := by
  rw [Nat.or_assoc, Nat.or_self, h]

theorem argLoop_out {E : Env} {D : Data} (W : World E D) (L : E.U.Locale) {o : Opts} (S : Surround)
    {as ts : List (List Nat)} (h0 : ∀ a ∈ as, 0 ∉ a) (h : Each NoNewline as ts) (io : Io) :
    ∃ r, (argLoop E o S (cliFlags o) as io : Out _) = .val r ∧ Work D E.U o S False ts io r := by
  induction h generalizing io with
  | nil => exact ⟨_, rfl, work_nil⟩
  | @cons a t as ts ha _ ih =>
    obtain ⟨⟨d, go⟩, h1, h2⟩ := process_out W L S (or_one (cliFlags_eq o)) a
    rw [takeWhile_all (h0 a (by simp)), chop_eq ha] at h2
    have h1' : (process_input E o S a (cliFlags o ||| IDN2_NFC_INPUT) : Out _) = .val (d, go) := h1
    unfold argLoop
    rw [h1', Out.bind_val]
    cases go with
    | false => exact ⟨_, rfl, work_stop h2⟩
    | true =>
      obtain ⟨r, h3, h4⟩ := ih (fun a ha => h0 a (by simp [ha])) (io.app d)
      exact ⟨r, h3, work_go h2 h4⟩

theorem lineLoop_out {E : Env} {D : Data} (W : World E D) (L : E.U.Locale) {o : Opts} (S : Surround)
    (bp : Nat) {rest : List Nat} {ls : List (List Nat)} (h : TextLines rest ls) (io : Io) :
    ∃ r, (lineLoop E o S (cliFlags o) bp rest io : Out _) = .val r ∧
      Work D E.U o S False (ls.map (·.takeWhile (· != 0))) io r := by
  have hend : ∀ io, (lineLoop E o S (cliFlags o) bp [] io : Out _) = .val (io, true) := by
    intro io
    rw [lineLoop.eq_def]
    rfl
  have hstep : ∀ {rest line rest' : List Nat} {io : Io}, getline rest = (line, rest') → line ≠ [] →
      (lineLoop E o S (cliFlags o) bp rest io : Out _) = (do
        let (d, go) ← process_input E o S line (cliFlags o)
        if go then lineLoop E o S (cliFlags o) bp rest' (io.app d) else pure (io.app d, false)) := by
    intro rest line rest' io hg hne
    rw [lineLoop.eq_def, dif_pos (by rw [hg]; exact List.length_pos_iff.mpr hne), hg]
    rfl
  induction h generalizing io with
  | nil => exact ⟨_, hend io, work_nil⟩
  | @last l h1 h2 =>
    rw [hstep (getline_nonl h2) h1]
    obtain ⟨⟨d, go⟩, g1, g2⟩ := process_out W L S (cliFlags_eq o) l
    rw [chop_eq (noNewline_self fun hc => h2 (mem_takeWhile_sub hc))] at g2
    rw [g1, Out.bind_val]
    cases go with
    | false => exact ⟨_, rfl, work_stop g2⟩
    | true => exact ⟨_, hend _, work_go g2 work_nil⟩
  | @cons l t ls h1 _ ih =>
    rw [hstep (getline_cons h1) (by simp)]
    obtain ⟨⟨d, go⟩, g1, g2⟩ := process_out W L S (cliFlags_eq o) (l ++ [0x0A])
    rw [chop_eq (takeWhile_line h1)] at g2
    rw [g1, Out.bind_val]
    cases go with
    | false => exact ⟨_, rfl, work_stop g2⟩
    | true =>
      obtain ⟨r, k1, k2⟩ := ih (io.app d)
      exact ⟨r, k1, work_go g2 k2⟩

theorem opening_ok (o : Opts) (S : Surround) : NoReport (opening o S) ∧
    (o.quiet = true → o.debug = false → opening o S = []) := by
  unfold opening
  constructor
  · refine noReport_append (noReport_append ?_ ?_) ?_ <;>
    · intro t m h
      split at h <;> simp at h
  · intro h1 h2
    rw [h1, h2]
    rfl

/-- From the loops to the end of the run. -/
theorem session_of_work {D : Data} {U : Uni} {o : Opts} {S : Surround} {mal : Prop}
    {ts : List (List Nat)} {r : Io × Bool} (hw : Work D U o S mal ts ⟨[], opening o S⟩ r) {x : Exit}
    (hx : x = if r.2 = false then ⟨r.1, 1⟩
      else if o.inputs = [] ∧ S.readError = true then ⟨r.1.app ⟨[], [.inputError]⟩, 1⟩
      else ⟨r.1, 0⟩) : Session D U o S mal ts x := by
  obtain ⟨done, rest, ns, ds, h1, h2, h3, h4, h5, h6⟩ := hw
  obtain ⟨hop, hq⟩ := opening_ok o S
  have hq' : o.quiet = true → o.debug = false → opening o S ++ ds = [] :=
    fun a b => by rw [hq a b, h5 b]; rfl
  rcases h6 with ⟨k1, k2, k3⟩ | ⟨t, post, e, k1, k2, k3, k4⟩
  · rw [k2, if_neg (by simp)] at hx
    by_cases hr : o.inputs = [] ∧ S.readError = true
    · rw [if_pos hr] at hx
      subst hx
      refine ⟨done, rest, ns, opening o S ++ ds ++ [.inputError], h1, h2, ?_, ?_, ?_,
        Or.inl ⟨k1, ?_, ?_⟩⟩
      · simp [Io.app, h3]
      · exact noReport_append (noReport_append hop h4) (by intro t m h; simp at h)
      · intro a b d hd
        rw [hq' a b] at hd
        simpa using hd
      · simp [Io.app, k3]
      · rw [if_pos hr]
    · rw [if_neg hr] at hx
      subst hx
      refine ⟨done, rest, ns, opening o S ++ ds, h1, h2, ?_, noReport_append hop h4, ?_,
        Or.inl ⟨k1, k3, ?_⟩⟩
      · simpa using h3
      · intro a b d hd
        rw [hq' a b] at hd
        cases hd
      · rw [if_neg hr]
  · rw [k2, if_pos rfl] at hx
    subst hx
    refine ⟨done, rest, ns, opening o S ++ ds, h1, h2, by simpa using h3, noReport_append hop h4, ?_,
      Or.inr ⟨t, post, e, k1, rfl, k3, k4⟩⟩
    intro a b d hd
    rw [hq' a b] at hd
    cases hd

/-! ### With a heap -/

section
variable {F : Nat → Bool} {l : List Nat}

theorem tri_hexdump (E : Env) (pre : String) (s : List Nat) :
    Tri F (hexdump E pre s : HeapM _) l (fun d l' => NoReport d ∧ ∃ k, l' = k ++ l) := by
  have hb : NoReport (s.mapIdx fun i c => Diag.byte pre i (c &&& 0xFF)) :=
    noReport_mapIdx (by intros; simp)
  unfold hexdump
  refine Tri.bind (tri_libConv _) ?_
  rintro _ _ _ (⟨_, rfl, rfl⟩ | ⟨_, rfl, rfl⟩ | ⟨u, p, _, rfl, rfl⟩)
  · exact Tri.pure ⟨hb, [], rfl⟩
  · exact Tri.pure ⟨hb, [], rfl⟩
  · refine Tri.bind Tri.touchHead ?_
    rintro _ _ _ rfl
    have ho : NoReport (if s ≠ u then u.mapIdx fun i c => Diag.utf8 pre i (c &&& 0xFF) else []) := by
      split
      · exact noReport_mapIdx (by intros; simp)
      · exact noReport_nil
    refine Tri.bind (tri_libConv _) ?_
    rintro _ _ _ (⟨_, rfl, rfl⟩ | ⟨_, rfl, rfl⟩ | ⟨v, q, _, rfl, rfl⟩)
    · exact Tri.pure ⟨noReport_append hb ho, [p], rfl⟩
    · exact Tri.pure ⟨noReport_append hb ho, [p], rfl⟩
    · refine Tri.bind Tri.touchHead ?_
      rintro _ _ _ rfl
      have hu : NoReport (v.mapIdx fun i c => Diag.ucs4 pre i c) :=
        noReport_mapIdx (by intros; simp)
      exact Tri.pure ⟨noReport_append (noReport_append hb ho) hu, [q, p], rfl⟩

theorem tri_debugDump (E : Env) (o : Opts) (pre : String) (s : List Nat) :
    Tri F (debugDump E o pre s : HeapM _) l (fun d l' => NoReport d ∧ (o.debug = false → d = []) ∧
      ∃ k, l' = k ++ l ∧ (o.debug = false → k = [])) := by
  unfold debugDump
  cases h : o.debug with
  | false => exact Tri.pure ⟨noReport_nil, fun _ => rfl, [], rfl, fun _ => rfl⟩
  | true =>
    refine (tri_hexdump E pre s).imp ?_
    rintro d l' _ ⟨h1, k, h2⟩
    exact ⟨h1, fun h => (by cases h), k, h2, fun h => (by cases h)⟩

theorem tri_process {E : Env} {D : Data} (W : World E D) (L : E.U.Locale) {o : Opts} (S : Surround)
    {flags : Nat} (hf : flags ||| 1 = toolFlags o) (buf : List Nat) :
    Tri F (process_input E o S buf flags : HeapM _) l (fun r l' =>
      Step D E.U o S (∃ k, F k = true) (chop (buf.takeWhile (· != 0))) r ∧
      ∃ k, l' = k ++ l ∧ (o.debug = false → k = [])) := by
  unfold process_input
  rw [cstr_takeWhile]
  simp only
  generalize chop (buf.takeWhile (· != 0)) = s
  by_cases h1 : s = showW
  · rw [if_pos h1]
    exact Tri.pure ⟨⟨[], noReport_nil, fun _ => rfl, Or.inl ⟨_, .warranty h1, rfl⟩⟩, [], rfl, fun _ => rfl⟩
  rw [if_neg h1]
  by_cases h2 : s = showC
  · rw [if_pos h2]
    exact Tri.pure ⟨⟨[], noReport_nil, fun _ => rfl, Or.inl ⟨_, .conditions h2, rfl⟩⟩, [], rfl, fun _ => rfl⟩
  rw [if_neg h2]
  unfold processText
  refine Tri.bind (tri_debugDump E o "input" s) ?_
  rintro d _ _ ⟨hd1, hd2, k, rfl, hk⟩
  refine Tri.bind (tri_convert W L o flags s) ?_
  rintro ⟨r, tag⟩ l' hn ⟨ht, hr⟩
  simp only at ht hr
  subst ht
  rcases ends_some hr with ⟨hm, rfl, rfl⟩ | ⟨e, he, rfl, rfl⟩ | ⟨n, p, he, rfl, rfl⟩
  · exact Tri.pure ⟨⟨d, hd1, hd2, Or.inr ⟨_, rfl, Or.inr ⟨hm, rfl⟩⟩⟩, k, rfl, hk⟩
  · refine Tri.pure ⟨⟨d, hd1, hd2, Or.inr ⟨_, rfl, Or.inl ⟨convP_err W L hf he, fun n hn => ?_⟩⟩⟩,
      k, rfl, hk⟩
    rw [(convP_ok_iff W L hf).mpr ((prints_iff h1 h2).mp hn)] at he
    cases he
  · simp only
    refine Tri.bind (tri_debugDump E o "output" s) ?_
    rintro d' _ hn' ⟨he1, he2, k', rfl, hk'⟩
    refine Tri.bind (Tri.touch (by simp)) ?_
    rintro _ _ _ rfl
    rw [cstr_append (convP_zero W L hf he)]
    simp only
    refine Tri.bind (Tri.free (by simp)) ?_
    rintro _ _ _ rfl
    refine Tri.pure ⟨⟨d ++ d', noReport_append hd1 he1, fun h => by rw [hd2 h, he2 h]; rfl,
      Or.inl ⟨n, (prints_iff h1 h2).mpr ((convP_ok_iff W L hf).mp he), rfl⟩⟩, k' ++ k, ?_,
      fun h => by rw [hk h, hk' h]; rfl⟩
    have hp : p ∉ k' := fun hc =>
      (List.nodup_append.mp hn').2.2 p hc p (by simp) rfl
    rw [List.erase_append_right _ hp, List.erase_cons_head, List.append_assoc]

theorem tri_argLoop {E : Env} {D : Data} (W : World E D) (L : E.U.Locale) {o : Opts} (S : Surround)
    {as ts : List (List Nat)} (h0 : ∀ a ∈ as, 0 ∉ a) (h : Each NoNewline as ts) (io : Io) :
    Tri F (argLoop E o S (cliFlags o) as io : HeapM _) l (fun r l' =>
      Work D E.U o S (∃ k, F k = true) ts io r ∧ ∃ k, l' = k ++ l ∧ (o.debug = false → k = [])) := by
  induction h generalizing io l with
  | nil => exact Tri.pure ⟨work_nil, [], rfl, fun _ => rfl⟩
  | @cons a t as ts ha _ ih =>
    unfold argLoop
    refine Tri.bind (tri_process W L S (or_one (cliFlags_eq o)) a) ?_
    rintro ⟨d, go⟩ _ _ ⟨h2, k, rfl, hk⟩
    rw [takeWhile_all (h0 a (by simp)), chop_eq ha] at h2
    cases go with
    | false => exact Tri.pure ⟨work_stop h2, k, rfl, hk⟩
    | true =>
      refine (ih (fun a ha => h0 a (by simp [ha])) (io.app d)).imp ?_
      rintro r _ _ ⟨h3, k', rfl, hk'⟩
      exact ⟨work_go h2 h3, k' ++ k, by simp, fun h => by rw [hk h, hk' h]; rfl⟩

theorem tri_lineLoop {E : Env} {D : Data} (W : World E D) (L : E.U.Locale) {o : Opts} (S : Surround)
    {bp : Nat} {rest : List Nat} {ls : List (List Nat)} (h : TextLines rest ls) (hbp : bp ∈ l) (io : Io) :
    Tri F (lineLoop E o S (cliFlags o) bp rest io : HeapM _) l (fun r l' =>
      Work D E.U o S (∃ k, F k = true) (ls.map (·.takeWhile (· != 0))) io r ∧
        ∃ k, l' = k ++ l ∧ (o.debug = false → k = [])) := by
  have hend : ∀ io, (lineLoop E o S (cliFlags o) bp [] io : HeapM _) = pure (io, true) := by
    intro io
    rw [lineLoop.eq_def]
    rfl
  have hstep : ∀ {rest line rest' : List Nat} {io : Io}, getline rest = (line, rest') → line ≠ [] →
      (lineLoop E o S (cliFlags o) bp rest io : HeapM _) = (do
        touch bp
        let (d, go) ← process_input E o S line (cliFlags o)
        if go then lineLoop E o S (cliFlags o) bp rest' (io.app d) else pure (io.app d, false)) := by
    intro rest line rest' io hg hne
    rw [lineLoop.eq_def, dif_pos (by rw [hg]; exact List.length_pos_iff.mpr hne), hg]
  induction h generalizing io l with
  | nil =>
    rw [hend]
    exact Tri.pure ⟨work_nil, [], rfl, fun _ => rfl⟩
  | @last s h1 h2 =>
    rw [hstep (getline_nonl h2) h1]
    refine Tri.bind (Tri.touch hbp) ?_
    rintro _ _ _ rfl
    refine Tri.bind (tri_process W L S (cliFlags_eq o) s) ?_
    rintro ⟨d, go⟩ _ _ ⟨g2, k, rfl, hk⟩
    rw [chop_eq (noNewline_self fun hc => h2 (mem_takeWhile_sub hc))] at g2
    cases go with
    | false => exact Tri.pure ⟨work_stop g2, k, rfl, hk⟩
    | true =>
      simp only [↓reduceIte, hend]
      exact Tri.pure ⟨work_go g2 work_nil, k, rfl, hk⟩
  | @cons s t ls h1 _ ih =>
    rw [hstep (getline_cons h1) (by simp)]
    refine Tri.bind (Tri.touch hbp) ?_
    rintro _ _ _ rfl
    refine Tri.bind (tri_process W L S (cliFlags_eq o) (s ++ [0x0A])) ?_
    rintro ⟨d, go⟩ _ _ ⟨g2, k, rfl, hk⟩
    rw [chop_eq (takeWhile_line h1)] at g2
    cases go with
    | false => exact Tri.pure ⟨work_stop g2, k, rfl, hk⟩
    | true =>
      refine (ih (List.mem_append_right _ hbp) (io.app d)).imp ?_
      rintro r _ _ ⟨h3, k', rfl, hk'⟩
      exact ⟨work_go g2 h3, k' ++ k, by simp, fun h => by rw [hk h, hk' h]; rfl⟩

end

/-! ### The whole run -/

/-- How a run ends, after the loops. -/
def finish (o : Opts) (S : Surround) (r : Io × Bool) : Exit :=
  if r.2 = false then ⟨r.1, 1⟩
  else if o.inputs = [] ∧ S.readError = true then ⟨r.1.app ⟨[], [.inputError]⟩, 1⟩
  else ⟨r.1, 0⟩

theorem cliMain_args {m : Type → Type} [CMem m] {E : Env} {o : Opts} {S : Surround}
    (hv : o.version = false) (hh : o.help = false) (hi : o.inputs ≠ []) :
    (cliMain E o S : m Exit) = (do
      let (io, go) ← argLoop E o S (cliFlags o) o.inputs ⟨[], opening o S⟩
      if !go then pure ⟨io, 1⟩ else pure ⟨io, 0⟩) := by
  unfold cliMain
  rw [hv, hh]
  simp only [Bool.false_eq_true, ↓reduceIte, List.length_eq_zero_iff, hi]

theorem finish_args {o : Opts} {S : Surround} (hi : o.inputs ≠ []) (r : Io × Bool) :
    finish o S r = if !r.2 then ⟨r.1, 1⟩ else ⟨r.1, 0⟩ := by
  unfold finish
  cases r.2 <;> simp [hi]

theorem finish_stdin {o : Opts} {S : Surround} (hi : o.inputs = []) (r : Io × Bool) :
    finish o S r = if !r.2 then ⟨r.1, 1⟩
      else if S.readError then ⟨r.1.app ⟨[], [.inputError]⟩, 1⟩ else ⟨r.1, 0⟩ := by
  unfold finish
  cases r.2 <;> simp [hi]

theorem main_out {E : Env} {D : Data} (W : World E D) (L : E.U.Locale) {o : Opts} {S : Surround}
    (hv : o.version = false) (hh : o.help = false) (h0 : ∀ a ∈ o.inputs, 0 ∉ a)
    {ts : List (List Nat)} (ht : Texts o S ts) :
    ∃ x, (cliMain E o S : Out _) = .val x ∧ Session D E.U o S False ts x := by
  unfold Texts at ht
  by_cases hi : o.inputs = []
  · rw [if_pos hi] at ht
    obtain ⟨ls, h1, rfl⟩ := ht
    obtain ⟨r, h2, h3⟩ := lineLoop_out W L (o := o) S 0 h1 ⟨[], opening o S⟩
    refine ⟨finish o S r, ?_, session_of_work h3 rfl⟩
    unfold cliMain
    rw [hv, hh, hi]
    have hr : (readLoop E o S (cliFlags o) ⟨[], opening o S⟩ : Out _) = .val r := by
      unfold readLoop
      show (Out.val (some 0)) >>= _ = _
      rw [Out.bind_val]
      simp only
      rw [h2, Out.bind_val]
      obtain ⟨io, go⟩ := r
      cases go <;> rfl
    simp only [Bool.false_eq_true, ↓reduceIte, argLoop, List.length_nil]
    show (Out.val _) >>= _ = _
    rw [Out.bind_val]
    simp only [Bool.not_true, Bool.false_eq_true, ↓reduceIte]
    rw [hr, Out.bind_val, finish_stdin hi]
    obtain ⟨io, go⟩ := r
    cases go <;> cases S.readError <;> rfl
  · rw [if_neg hi] at ht
    obtain ⟨r, h2, h3⟩ := argLoop_out W L (o := o) S h0 ht ⟨[], opening o S⟩
    refine ⟨finish o S r, ?_, session_of_work h3 rfl⟩
    rw [cliMain_args hv hh hi, h2, Out.bind_val, finish_args hi]
    obtain ⟨io, go⟩ := r
    cases go <;> rfl

theorem tri_main {E : Env} {D : Data} (W : World E D) (L : E.U.Locale) {o : Opts} {S : Surround}
    (hv : o.version = false) (hh : o.help = false) (h0 : ∀ a ∈ o.inputs, 0 ∉ a)
    {ts : List (List Nat)} (ht : Texts o S ts) (F : Nat → Bool) (l : List Nat) :
    Tri F (cliMain E o S : HeapM _) l (fun x l' =>
      (Session D E.U o S (∃ k, F k = true) ts x ∨
        ((∃ k, F k = true) ∧ o.inputs = [] ∧ Session D E.U o S (∃ k, F k = true) [] x)) ∧
      ∃ k, l' = k ++ l ∧ (o.debug = false → x.status = 0 → k = [])) := by
  unfold Texts at ht
  by_cases hi : o.inputs = []
  · rw [if_pos hi] at ht
    obtain ⟨ls, h1, rfl⟩ := ht
    have hr : Tri F (readLoop E o S (cliFlags o) ⟨[], opening o S⟩ : HeapM _) l (fun r l' =>
        (Work D E.U o S (∃ k, F k = true) (ls.map (·.takeWhile (· != 0))) ⟨[], opening o S⟩ r ∨
          ((∃ k, F k = true) ∧ Work D E.U o S (∃ k, F k = true) [] ⟨[], opening o S⟩ r)) ∧
        ∃ k, l' = k ++ l ∧ (o.debug = false → r.2 = true → k = [])) := by
      unfold readLoop
      refine Tri.bind Tri.malloc ?_
      rintro _ _ _ (⟨hk, rfl, rfl⟩ | ⟨p, rfl, rfl⟩)
      · exact Tri.pure ⟨Or.inr ⟨hk, work_nil⟩, [], rfl, fun _ _ => rfl⟩
      · refine Tri.bind (tri_lineLoop W L (o := o) S h1 (by simp) ⟨[], opening o S⟩) ?_
        rintro ⟨io, go⟩ _ hn ⟨h3, k, rfl, hk⟩
        cases go with
        | false =>
          exact Tri.pure ⟨Or.inl h3, k ++ [p], by simp, fun _ h => (by cases h)⟩
        | true =>
          simp only [↓reduceIte]
          refine Tri.bind (Tri.free (by simp)) ?_
          rintro _ _ _ rfl
          refine Tri.pure ⟨Or.inl h3, k, ?_, fun h _ => hk h⟩
          have hp : p ∉ k := fun hc => (List.nodup_append.mp hn).2.2 p hc p (by simp) rfl
          rw [List.erase_append_right _ hp, List.erase_cons_head]
    unfold cliMain
    rw [hv, hh, hi]
    simp only [Bool.false_eq_true, ↓reduceIte, argLoop, List.length_nil]
    refine Tri.bind (Tri.pure (Q := fun r l' => r = (⟨[], opening o S⟩, true) ∧ l' = l) ⟨rfl, rfl⟩) ?_
    rintro _ _ _ ⟨rfl, rfl⟩
    simp only [Bool.not_true, Bool.false_eq_true, ↓reduceIte]
    refine Tri.bind hr ?_
    rintro ⟨io, go⟩ _ _ ⟨h3, k, rfl, hk⟩
    have key : ∀ x, x = finish o S (io, go) →
        ((Session D E.U o S (∃ k, F k = true) (ls.map (·.takeWhile (· != 0))) x ∨
          ((∃ k, F k = true) ∧ True ∧
            Session D E.U o S (∃ k, F k = true) [] x))) := by
      intro x hx
      rcases h3 with h3 | ⟨h4, h3⟩
      · exact Or.inl (session_of_work h3 hx)
      · exact Or.inr ⟨h4, trivial, session_of_work h3 hx⟩
    rw [finish_stdin hi] at key
    cases go with
    | false =>
      exact Tri.pure ⟨key ⟨io, 1⟩ (by simp), k, rfl, fun _ h => (by cases h)⟩
    | true =>
      cases hre : S.readError with
      | true =>
        rw [hre] at key
        exact Tri.pure ⟨key ⟨io.app ⟨[], [.inputError]⟩, 1⟩ (by simp), k, rfl, fun _ h => (by cases h)⟩
      | false =>
        rw [hre] at key
        exact Tri.pure ⟨key ⟨io, 0⟩ (by simp), k, rfl, fun h _ => hk h rfl⟩
  · rw [if_neg hi] at ht
    rw [cliMain_args hv hh hi]
    refine Tri.bind (tri_argLoop W L (o := o) S h0 ht ⟨[], opening o S⟩) ?_
    rintro ⟨io, go⟩ _ _ ⟨h3, k, rfl, hk⟩
    have key := session_of_work h3 rfl
    have hf := finish_args (S := S) hi (io, go)
    unfold finish at hf
    rw [hf] at key
    cases go with
    | false => exact Tri.pure ⟨Or.inl key, k, rfl, fun _ h => (by cases h)⟩
    | true => exact Tri.pure ⟨Or.inl key, k, rfl, fun h _ => hk h⟩

/-! ### The strings of a run -/

theorem each_noNewline : ∀ as : List (List Nat), ∃ ts, Each NoNewline as ts
  | [] => ⟨[], .nil⟩
  | a :: as => by
    obtain ⟨ts, h⟩ := each_noNewline as
    by_cases ha : [0x0A] <:+ a
    · obtain ⟨t, rfl⟩ := ha
      exact ⟨t :: ts, .cons (Or.inl rfl) h⟩
    · exact ⟨a :: ts, .cons (Or.inr ⟨rfl, ha⟩) h⟩

theorem each_noNewline_unique {as ts us : List (List Nat)} (h : Each NoNewline as ts)
    (g : Each NoNewline as us) : ts = us := by
  induction h generalizing us with
  | nil => cases g; rfl
  | cons h _ ih =>
    cases g with
    | cons g1 g2 => rw [noNewline_unique h g1, ih g2]

end Idn2
