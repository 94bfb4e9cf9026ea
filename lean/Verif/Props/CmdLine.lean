import Verif.Spec.CmdLine
import Verif.Props.Cli

/-
C103: the command line of the tool.
-/

namespace Idn2

open Spec

/-! ### Names and letters -/

/-- The names as the parser takes them. -/
def Taken (n : List Nat) (o : CmdOpt) : Prop := Names n o ∨ Loose n o

def allOpts : List CmdOpt :=
  [.help, .version, .decode, .lookup, .register, .tr46t, .tr46nt, .noTr46, .std3, .noRoundtrip, .debug,
   .quiet]

theorem mem_allOpts (o : CmdOpt) : o ∈ allOpts := by cases o <;> decide

/-- `Taken`, to be computed. -/
def takenB (n : List Nat) (o : CmdOpt) : Bool :=
  n == optName o ||
    (n != [] && n.isPrefixOf (optName o) && allOpts.all fun o' => !n.isPrefixOf (optName o') || o' == o) ||
    ((n == str "n" || n == str "no" || n == str "no-") && o == .noTr46)

theorem takenB_iff {n : List Nat} {o : CmdOpt} : takenB n o = true ↔ Taken n o := by
  unfold takenB Taken Names Loose
  simp only [Bool.or_eq_true, Bool.and_eq_true, beq_iff_eq, bne_iff_ne, List.isPrefixOf_iff_prefix,
    List.all_eq_true, Bool.not_eq_true', ne_eq]
  have : (∀ x ∈ allOpts, n.isPrefixOf (optName x) = false ∨ x = o) ↔
      ∀ o', n <+: optName o' → o' = o := by
    constructor
    · intro h o' hp
      rcases h o' (mem_allOpts o') with h | h
      · rw [List.isPrefixOf_iff_prefix.mpr hp] at h; cases h
      · exact h
    · intro h x _
      cases hb : n.isPrefixOf (optName x)
      · exact .inl rfl
      · exact .inr (h x (List.isPrefixOf_iff_prefix.mp hb))
  rw [this]
  grind

/-- The beginnings of the names. -/
def beginnings : List (List Nat) :=
  allOpts.flatMap fun o => (List.range ((optName o).length + 1)).map fun k => (optName o).take k

theorem mem_beginnings {n : List Nat} {o : CmdOpt} (h : n <+: optName o) : n ∈ beginnings := by
  refine List.mem_flatMap.mpr ⟨o, mem_allOpts o, List.mem_map.mpr ⟨n.length, ?_, ?_⟩⟩
  · exact List.mem_range.mpr (by have := h.length_le; omega)
  · exact (List.prefix_iff_eq_take.mp h).symm

theorem beginnings_checked : ∀ n ∈ beginnings, ∀ o ∈ allOpts,
    ((longOption n).bind cmdOpt == some o) = takenB n o := by decide +kernel

theorem taken_prefix {n : List Nat} {o : CmdOpt} (h : Taken n o) : n <+: optName o := by
  rcases h with (rfl | ⟨_, h, _⟩) | ⟨h, rfl⟩
  · exact List.prefix_refl _
  · exact h
  · rcases h with rfl | rfl | rfl <;> decide

theorem abbrev_found {n : List Nat} {p : LongOption} : ∀ {found : Option LongOption} {l : List LongOption},
    (∀ q, found = some q → q ∈ longOptions ∧ n <+: q.name) → (∀ q ∈ l, q ∈ longOptions) →
    abbrevOption n found l = some (some p) → p ∈ longOptions ∧ n <+: p.name
  | found, [], h, _, e => by
    simp only [abbrevOption, Option.some.injEq] at e
    exact h p e
  | found, q :: r, h, hl, e => by
    unfold abbrevOption at e
    have hr : ∀ q ∈ r, q ∈ longOptions := fun x hx => hl x (List.mem_cons_of_mem _ hx)
    by_cases hq : n.isPrefixOf q.name
    · rw [if_pos hq] at e
      cases found with
      | none =>
        refine abbrev_found ?_ hr e
        rintro _ ⟨⟩
        exact ⟨hl q (by simp), List.isPrefixOf_iff_prefix.mp hq⟩
      | some f =>
        simp only at e
        split at e
        · cases e
        · exact abbrev_found h hr e
    · rw [if_neg hq] at e
      exact abbrev_found h hr e

theorem longOption_prefix {n : List Nat} {p : LongOption} (h : longOption n = some p) :
    p ∈ longOptions ∧ n <+: p.name := by
  unfold longOption at h
  simp only at h
  split at h
  · cases h
  rename_i hl
  have hn : n.takeWhile (· != 0x3D) = n := by
    have : n.takeWhile (· != 0x3D) <+: n := List.takeWhile_prefix _
    exact this.eq_of_length (by omega)
  rw [hn] at h
  split at h
  · rename_i q hq
    injection h with h
    subst h
    exact ⟨List.mem_of_find?_eq_some hq, by
      have := List.find?_some hq
      simp only [beq_iff_eq] at this
      rw [this]; exact List.prefix_refl _⟩
  · rename_i hq
    cases ha : abbrevOption n none longOptions with
    | none => rw [ha] at h; cases h
    | some f =>
      rw [ha] at h
      cases f with
      | none => cases h
      | some q =>
        injection h with h
        subst h
        exact abbrev_found (by simp) (fun q h => h) ha

theorem names_table : ∀ p ∈ longOptions, ∃ o ∈ allOpts, p.name = optName o := by decide +kernel

/-- What the parser makes of a long name. -/
theorem long_iff {n : List Nat} {o : CmdOpt} : (longOption n).bind cmdOpt = some o ↔ Taken n o := by
  have key : n ∈ beginnings → ((longOption n).bind cmdOpt = some o ↔ Taken n o) := fun hm => by
    rw [← takenB_iff, ← beginnings_checked n hm o (mem_allOpts o), beq_iff_eq]
  constructor
  · intro h
    refine (key ?_).mp h
    cases hl : longOption n with
    | none => rw [hl] at h; cases h
    | some p =>
      obtain ⟨h1, h2⟩ := longOption_prefix hl
      obtain ⟨o', _, h3⟩ := names_table p h1
      exact mem_beginnings (h3 ▸ h2)
  · intro h
    exact (key (mem_beginnings (taken_prefix h))).mpr h

theorem short_iff {c : Nat} {o : CmdOpt} :
    (shortOptions.contains c = true ∧ cmdOpt ⟨[], c⟩ = some o) ↔ optLetter o = some c := by
  constructor
  · rintro ⟨h, h'⟩
    have : ∀ c ∈ shortOptions, ∀ o ∈ allOpts, cmdOpt ⟨[], c⟩ = some o → optLetter o = some c := by
      decide +kernel
    exact this c (List.contains_iff_mem.mp h) o (mem_allOpts o) h'
  · intro h
    cases o <;> simp only [optLetter, Option.some.injEq, reduceCtorEq] at h <;> subst h <;> decide

/-! ### Arguments -/

theorem giveOpt_more {o : CmdOpt} {given g : List CmdOpt} :
    giveOpt o given = .more g ↔ o ∉ given ∧ ¬ Final o ∧ g = given ++ [o] := by
  unfold giveOpt Final
  by_cases h1 : o ∈ given
  · simp [h1]
  · rw [if_neg h1]
    by_cases h2 : o = .help ∨ o = .version
    · simp [h2]
    · rw [if_neg h2]; simp [h1, h2, eq_comm]

theorem giveOpt_halt {o : CmdOpt} {given g : List CmdOpt} :
    giveOpt o given = .halt g ↔ o ∉ given ∧ Final o ∧ g = given ++ [o] := by
  unfold giveOpt Final
  by_cases h1 : o ∈ given
  · simp [h1]
  · rw [if_neg h1]
    by_cases h2 : o = .help ∨ o = .version
    · rw [if_pos h2]; simp [h1, h2, eq_comm]
    · rw [if_neg h2]; simp [h2]

theorem nodup_snoc {l : List CmdOpt} {o : CmdOpt} (h : l.Nodup) : (l ++ [o]).Nodup ↔ o ∉ l := by
  rw [List.nodup_append]
  constructor
  · rintro ⟨_, _, h⟩ hm
    exact h o hm o (by simp) rfl
  · intro hn
    exact ⟨h, by simp, by rintro a ha b hb rfl; simp at hb; subst hb; exact hn ha⟩

theorem shortLoop_cons {c : Nat} {r : List Nat} {given : List CmdOpt} {x : CmdStep} (hx : x ≠ .fail) :
    shortLoop (c :: r) given = x ↔ ∃ o, optLetter o = some c ∧
      ((∃ g, giveOpt o given = .more g ∧ shortLoop r g = x) ∨
        (giveOpt o given = x ∧ ∀ g, x ≠ .more g)) := by
  conv => lhs; unfold shortLoop
  constructor
  · intro h
    split at h
    · rename_i hc
      cases ho : cmdOpt ⟨[], c⟩ with
      | none => rw [ho] at h; exact absurd h.symm hx
      | some o =>
        refine ⟨o, short_iff.mp ⟨hc, ho⟩, ?_⟩
        rw [ho] at h
        simp only at h
        cases hg : giveOpt o given with
        | more g => rw [hg] at h; exact .inl ⟨g, rfl, h⟩
        | halt g => rw [hg] at h; subst h; exact .inr ⟨rfl, by simp⟩
        | fail => rw [hg] at h; exact absurd h.symm hx
    · exact absurd h.symm hx
  · rintro ⟨o, ho, h⟩
    obtain ⟨hc, h2⟩ := short_iff.mpr ho
    rw [if_pos hc, h2]
    simp only
    rcases h with ⟨g, hg, h⟩ | ⟨hg, hn⟩
    · rw [hg]; exact h
    · rw [hg]
      cases x with
      | more g => exact absurd rfl (hn g)
      | halt g => rfl
      | fail => rfl

theorem shortLoop_more {cs : List Nat} {given g : List CmdOpt} (hd : given.Nodup) :
    shortLoop cs given = .more g ↔ ∃ os, Each (fun c o => optLetter o = some c) cs os ∧
      (∀ o ∈ os, ¬ Final o) ∧ (given ++ os).Nodup ∧ g = given ++ os := by
  induction cs generalizing given with
  | nil =>
    unfold shortLoop
    constructor
    · intro h
      injection h with h
      exact ⟨[], .nil, by simp, by simpa using hd, by simp [h]⟩
    · rintro ⟨_, h1, _, _, h2⟩
      cases h1
      simp [h2]
  | cons c r ih =>
    rw [shortLoop_cons (by simp)]
    constructor
    · rintro ⟨o, ho, h⟩
      rcases h with ⟨g', h1, h2⟩ | ⟨_, h2⟩
      · obtain ⟨h3, h4, rfl⟩ := giveOpt_more.mp h1
        obtain ⟨os, h5, h6, h7, rfl⟩ := (ih ((nodup_snoc hd).mpr h3)).mp h2
        refine ⟨o :: os, .cons ho h5, ?_, by simpa using h7, by simp⟩
        intro x hx
        rcases List.mem_cons.mp hx with rfl | hx
        · exact h4
        · exact h6 x hx
      · exact absurd rfl (h2 g)
    · rintro ⟨os, h1, h2, h3, rfl⟩
      cases h1 with
      | @cons _ o _ os' ho h1 =>
        have hn : o ∉ given := fun hm => by
          rw [List.nodup_append] at h3
          exact h3.2.2 o hm o (by simp) rfl
        refine ⟨o, ho, .inl ⟨_, giveOpt_more.mpr ⟨hn, h2 o (by simp), rfl⟩, ?_⟩⟩
        exact (ih ((nodup_snoc hd).mpr hn)).mpr ⟨os', h1, fun x hx => h2 x (by simp [hx]),
          by simpa using h3, by simp⟩

theorem shortLoop_halt {cs : List Nat} {given g : List CmdOpt} (hd : given.Nodup) :
    shortLoop cs given = .halt g ↔ ∃ a c b os o, cs = a ++ c :: b ∧
      Each (fun c o => optLetter o = some c) a os ∧ (∀ o ∈ os, ¬ Final o) ∧ optLetter o = some c ∧
      Final o ∧ (given ++ (os ++ [o])).Nodup ∧ g = given ++ (os ++ [o]) := by
  induction cs generalizing given with
  | nil =>
    unfold shortLoop
    constructor
    · intro h; cases h
    · rintro ⟨a, c, b, _, _, h, _⟩
      simp at h
  | cons c r ih =>
    rw [shortLoop_cons (by simp)]
    constructor
    · rintro ⟨o, ho, h⟩
      rcases h with ⟨g', h1, h2⟩ | ⟨h1, _⟩
      · obtain ⟨h3, h4, rfl⟩ := giveOpt_more.mp h1
        obtain ⟨a, c', b, os, o', rfl, h5, h6, h7, h8, h9, rfl⟩ := (ih ((nodup_snoc hd).mpr h3)).mp h2
        refine ⟨c :: a, c', b, o :: os, o', rfl, .cons ho h5, ?_, h7, h8, by simpa using h9, by simp⟩
        intro x hx
        rcases List.mem_cons.mp hx with rfl | hx
        · exact h4
        · exact h6 x hx
      · obtain ⟨h3, h4, rfl⟩ := giveOpt_halt.mp h1
        exact ⟨[], c, r, [], o, rfl, .nil, by simp, ho, h4, (nodup_snoc hd).mpr h3, rfl⟩
    · rintro ⟨a, c', b, os, o, h0, h1, h2, h3, h4, h5, rfl⟩
      cases h1 with
      | nil =>
        injection h0 with h0 h0'
        subst h0
        exact ⟨o, h3, .inr ⟨giveOpt_halt.mpr ⟨(nodup_snoc hd).mp h5, h4, rfl⟩, by simp⟩⟩
      | @cons x o' a' os' ho h1 =>
        injection h0 with h0 h0'
        subst h0
        have hn : o' ∉ given := fun hm => by
          rw [List.nodup_append] at h5
          exact h5.2.2 o' hm o' (by simp) rfl
        refine ⟨o', ho, .inl ⟨_, giveOpt_more.mpr ⟨hn, h2 o' (by simp), rfl⟩, ?_⟩⟩
        exact (ih ((nodup_snoc hd).mpr hn)).mpr ⟨a', c', b, os', o, h0', h1,
          fun x hx => h2 x (by simp [hx]), h3, h4, by simpa using h5, by simp⟩

/-- An argument with options. -/
def IsOption (w : List Nat) : Prop := w.head? = some 0x2D ∧ w.length > 1 ∧ w ≠ [0x2D, 0x2D]

theorem letter_ne {c : Nat} {o : CmdOpt} (h : optLetter o = some c) : c ≠ 0x2D := by
  cases o <;> simp [optLetter] at h <;> subst h <;> decide

theorem taken_ne {n : List Nat} {o : CmdOpt} (h : Taken n o) : n ≠ [] := by
  rintro rfl
  rcases h with (h | ⟨h, _⟩) | ⟨h, _⟩
  · cases o <;> exact absurd h (by decide)
  · exact h rfl
  · rcases h with h | h | h <;> exact absurd h (by decide)

theorem gives_isOption {w : List Nat} {os : List CmdOpt} (h : Gives Taken w os) : IsOption w := by
  cases h with
  | @long n o h =>
    refine ⟨rfl, by simp [str], fun e => taken_ne h ?_⟩
    simpa [str] using e
  | @short c r os h =>
    cases h with
    | cons h _ =>
      refine ⟨rfl, by simp [str], fun e => letter_ne h ?_⟩
      simp [str] at e
      exact e.1

theorem ends_isOption {w : List Nat} {os : List CmdOpt} (h : EndsAt Taken w os) : IsOption w := by
  cases h with
  | @long n o h =>
    refine ⟨rfl, by simp [str], fun e => taken_ne h ?_⟩
    simpa [str] using e
  | @short a b c os o h _ h' _ =>
    refine ⟨rfl, by simp [str]; omega, fun e => ?_⟩
    cases h with
    | nil => simp [str] at e; exact letter_ne h' e.1
    | cons h _ => simp [str] at e

/-- The two forms of an argument with options. -/
theorem isOption_forms {w : List Nat} (h : IsOption w) :
    (∃ n, n ≠ [] ∧ w = str "--" ++ n) ∨ (∃ c r, c ≠ 0x2D ∧ w = str "-" ++ c :: r) := by
  obtain ⟨h1, h2, h3⟩ := h
  match w, h1, h2, h3 with
  | a :: c :: r, h1, _, h3 =>
    simp at h1
    subst h1
    by_cases hc : c = 0x2D
    · subst hc
      exact .inl ⟨r, fun e => h3 (by rw [e]), rfl⟩
    · exact .inr ⟨c, r, hc, rfl⟩

theorem cmdWord_long (n : List Nat) (given : List CmdOpt) : cmdWord (str "--" ++ n) given =
    match (longOption n).bind cmdOpt with
    | none => .fail
    | some o => giveOpt o given := rfl

theorem cmdWord_short {c : Nat} (hc : c ≠ 0x2D) (r : List Nat) (given : List CmdOpt) :
    cmdWord (str "-" ++ c :: r) given = shortLoop (c :: r) given := by
  show cmdWord (0x2D :: c :: r) given = _
  unfold cmdWord
  split
  · rename_i h
    injection h with _ h
    injection h with h _
    exact absurd h hc
  · rfl

theorem str_cancel {c : Nat} {r n : List Nat} (hc : c ≠ 0x2D) : str "-" ++ c :: r ≠ str "--" ++ n := by
  intro e
  simp [str] at e
  exact hc e.1

theorem cmdWord_more {w : List Nat} {given g : List CmdOpt} (hd : given.Nodup) (hw : IsOption w) :
    cmdWord w given = .more g ↔ ∃ os, Gives Taken w os ∧ (∀ o ∈ os, ¬ Final o) ∧
      (given ++ os).Nodup ∧ g = given ++ os := by
  rcases isOption_forms hw with ⟨n, hn, rfl⟩ | ⟨c, r, hc, rfl⟩
  · rw [cmdWord_long]
    constructor
    · intro h
      cases ho : (longOption n).bind cmdOpt with
      | none => rw [ho] at h; cases h
      | some o =>
        rw [ho] at h
        obtain ⟨h1, h2, rfl⟩ := giveOpt_more.mp h
        exact ⟨[o], .long (long_iff.mp ho), by simpa using h2, (nodup_snoc hd).mpr h1, rfl⟩
    · rintro ⟨os, h1, h2, h3, rfl⟩
      generalize hw : str "--" ++ n = w at h1
      cases h1 with
      | @long n' o h =>
        have : n' = n := (List.append_cancel_left hw).symm
        subst this
        rw [long_iff.mpr h]
        exact giveOpt_more.mpr ⟨(nodup_snoc hd).mp h3, h2 o (by simp), rfl⟩
      | @short c r _ h =>
        cases h with
        | cons h _ => exact absurd hw.symm (str_cancel (letter_ne h))
  · rw [cmdWord_short hc, shortLoop_more hd]
    constructor
    · rintro ⟨os, h1, h2⟩
      exact ⟨os, .short h1, h2⟩
    · rintro ⟨os, h1, h2⟩
      refine ⟨os, ?_, h2⟩
      generalize hw : str "-" ++ c :: r = w at h1
      cases h1 with
      | long h => exact absurd hw (str_cancel hc)
      | short h => rw [List.append_cancel_left hw]; exact h

theorem cmdWord_halt {w : List Nat} {given g : List CmdOpt} (hd : given.Nodup) (hw : IsOption w) :
    cmdWord w given = .halt g ↔ ∃ os, EndsAt Taken w os ∧ (given ++ os).Nodup ∧ g = given ++ os := by
  rcases isOption_forms hw with ⟨n, hn, rfl⟩ | ⟨c, r, hc, rfl⟩
  · rw [cmdWord_long]
    constructor
    · intro h
      cases ho : (longOption n).bind cmdOpt with
      | none => rw [ho] at h; cases h
      | some o =>
        rw [ho] at h
        obtain ⟨h1, h2, rfl⟩ := giveOpt_halt.mp h
        exact ⟨[o], .long (long_iff.mp ho) h2, (nodup_snoc hd).mpr h1, rfl⟩
    · rintro ⟨os, h1, h3, rfl⟩
      generalize hw : str "--" ++ n = w at h1
      cases h1 with
      | @long n' o h h2 =>
        have : n' = n := (List.append_cancel_left hw).symm
        subst this
        rw [long_iff.mpr h]
        exact giveOpt_halt.mpr ⟨(nodup_snoc hd).mp h3, h2, rfl⟩
      | @short a b c os o h _ h' _ =>
        cases h with
        | nil => exact absurd (by simpa using hw.symm) (str_cancel (r := b) (n := n) (letter_ne h'))
        | @cons x _ a _ h _ =>
          exact absurd (by simpa using hw.symm) (str_cancel (r := a ++ c :: b) (n := n) (letter_ne h))
  · rw [cmdWord_short hc, shortLoop_halt hd]
    constructor
    · rintro ⟨a, c', b, os, o, h0, h1, h2, h3, h4, h5, rfl⟩
      refine ⟨os ++ [o], ?_, h5, rfl⟩
      rw [h0, ← List.append_assoc]
      exact .short h1 h2 h3 h4
    · rintro ⟨os, h1, h5, rfl⟩
      generalize hw : str "-" ++ c :: r = w at h1
      cases h1 with
      | long h => exact absurd hw (str_cancel hc)
      | @short a b c' os o h h2 h3 h4 =>
        rw [List.append_assoc] at hw
        exact ⟨a, c', b, os, o, List.append_cancel_left hw, h, h2, h3, h4, h5, rfl⟩

/-! ### Command lines -/

theorem operand_iff {w : List Nat} : Operand w ↔ ¬ IsOption w ∧ w ≠ str "--" := by
  unfold Operand IsOption
  constructor
  · rintro (h | rfl)
    · have hn : w.head? ≠ some 0x2D := fun e => h (by
        cases w with
        | nil => cases e
        | cons a r => simp at e; subst e; exact ⟨r, rfl⟩)
      exact ⟨fun h' => hn h'.1, fun e => hn (by rw [e]; rfl)⟩
    · exact ⟨by simp [str], by decide⟩
  · rintro ⟨h, h'⟩
    match w, h, h' with
    | [], _, _ => exact .inl (by decide)
    | [a], _, _ =>
      by_cases ha : a = 0x2D
      · exact .inr (by rw [ha]; rfl)
      · refine .inl ?_
        rintro ⟨t, ht⟩
        simp [str] at ht
        exact ha ht.1.symm
    | a :: b :: r, h, h' =>
      refine .inl ?_
      rintro ⟨t, ht⟩
      simp [str] at ht
      exact h ⟨by simp [← ht.1], by simp, h'⟩

/-- The end of the parser with the options `given` and the strings `inputs` before. -/
def Outcome (posix : Bool) (args : List (List Nat)) (given : List CmdOpt) (inputs : List (List Nat))
    (o : Opts) : Prop :=
  (∃ os ss, Reads Taken posix args os ss ∧ (∀ x ∈ os, ¬ Final x) ∧ (given ++ os).Nodup ∧
    o = argsInfo (given ++ os) (inputs ++ ss)) ∨
  ∃ os, Halts Taken posix args os ∧ (given ++ os).Nodup ∧ o = argsInfo (given ++ os) []

theorem halts_nil {posix : Bool} {os : List CmdOpt} : ¬ Halts Taken posix [] os := nofun

theorem cmdLoop_iff {posix : Bool} {args : List (List Nat)} {o : Opts} :
    ∀ {given : List CmdOpt} {inputs : List (List Nat)}, given.Nodup →
      (cmdLoop posix args given inputs = some o ↔ Outcome posix args given inputs o) := by
  induction args with
  | nil =>
    intro given inputs hd
    unfold cmdLoop Outcome
    constructor
    · intro h
      injection h with h
      exact .inl ⟨[], [], .nil, by simp, by simpa using hd, by simp [h]⟩
    · rintro (⟨os, ss, h, _, _, rfl⟩ | ⟨os, h, _⟩)
      · cases h; simp
      · exact absurd h halts_nil
  | cons w r ih =>
    intro given inputs hd
    unfold cmdLoop
    by_cases h2 : w = [0x2D, 0x2D]
    · have hno : ¬ IsOption w := fun h => h.2.2 h2
      rw [if_pos h2]
      constructor
      · intro h
        injection h with h
        refine .inl ⟨[], r, ?_, by simp, by simpa using hd, by simp [h]⟩
        rw [h2]; exact .stop
      · rintro (⟨os, ss, h, _, _, rfl⟩ | ⟨os, h, _⟩)
        · cases h with
          | stop => simp
          | opts h _ => exact absurd (gives_isOption h) hno
          | operand h => exact absurd h2 (operand_iff.mp h).2
          | first h => exact absurd h2 (operand_iff.mp h).2
        · cases h with
          | here h => exact absurd (ends_isOption h) hno
          | opts h _ _ => exact absurd (gives_isOption h) hno
          | operand h => exact absurd h2 (operand_iff.mp h).2
    · rw [if_neg h2]
      by_cases hw : w.head? = some 0x2D ∧ w.length > 1
      · have hi : IsOption w := ⟨hw.1, hw.2, h2⟩
        have hop : ¬ Operand w := fun h => (operand_iff.mp h).1 hi
        rw [if_pos hw]
        constructor
        · intro h
          cases hc : cmdWord w given with
          | more g =>
            rw [hc] at h
            obtain ⟨os, h1, h3, h4, rfl⟩ := (cmdWord_more hd hi).mp hc
            rcases (ih h4).mp h with ⟨os', ss, h5, h6, h7, h8⟩ | ⟨os', h5, h6, h7⟩
            · refine .inl ⟨os ++ os', ss, .opts h1 h5, ?_, by simpa using h7, by simpa using h8⟩
              intro x hx
              rcases List.mem_append.mp hx with hx | hx
              · exact h3 x hx
              · exact h6 x hx
            · exact .inr ⟨os ++ os', .opts h1 h3 h5, by simpa using h6, by simpa using h7⟩
          | halt g =>
            rw [hc] at h
            injection h with h
            obtain ⟨os, h1, h3, rfl⟩ := (cmdWord_halt hd hi).mp hc
            exact .inr ⟨os, .here h1, h3, h.symm⟩
          | fail => rw [hc] at h; cases h
        · rintro (⟨os, ss, h, h3, h4, h5⟩ | ⟨os, h, h4, h5⟩)
          · cases h with
            | stop => exact absurd rfl h2
            | @opts _ _ os os' _ h1 h6 =>
              rw [← List.append_assoc] at h4
              have hn := (List.nodup_append.mp h4).1
              rw [(cmdWord_more hd hi).mpr ⟨os, h1, fun x hx => h3 x (by simp [hx]), hn, rfl⟩]
              exact (ih hn).mpr (.inl ⟨os', ss, h6, fun x hx => h3 x (by simp [hx]), h4,
                by rw [h5, List.append_assoc]⟩)
            | operand h => exact absurd h hop
            | first h => exact absurd h hop
          · cases h with
            | here h => rw [(cmdWord_halt hd hi).mpr ⟨os, h, h4, rfl⟩, h5]
            | @opts _ _ os os' h1 h3 h6 =>
              rw [← List.append_assoc] at h4
              have hn := (List.nodup_append.mp h4).1
              rw [(cmdWord_more hd hi).mpr ⟨os, h1, h3, hn, rfl⟩]
              exact (ih hn).mpr (.inr ⟨os', h6, h4, by rw [h5, List.append_assoc]⟩)
            | operand h => exact absurd h hop
      · have hi : ¬ IsOption w := fun h => hw ⟨h.1, h.2.1⟩
        have hop : Operand w := operand_iff.mpr ⟨hi, h2⟩
        rw [if_neg hw]
        cases posix with
        | true =>
          rw [if_pos rfl]
          constructor
          · intro h
            injection h with h
            exact .inl ⟨[], w :: r, .first hop rfl, by simp, by simpa using hd, by simp [h]⟩
          · rintro (⟨os, ss, h, _, _, rfl⟩ | ⟨os, h, _⟩)
            · cases h with
              | stop => exact absurd rfl h2
              | opts h _ => exact absurd (gives_isOption h) hi
              | operand _ h => cases h
              | first => simp
            · cases h with
              | here h => exact absurd (ends_isOption h) hi
              | opts h _ _ => exact absurd (gives_isOption h) hi
              | operand _ h => cases h
        | false =>
          rw [if_neg (by decide), ih hd]
          constructor
          · rintro (⟨os, ss, h, h3, h4, h5⟩ | ⟨os, h, h4⟩)
            · exact .inl ⟨os, w :: ss, .operand hop rfl h, h3, h4, by simpa using h5⟩
            · exact .inr ⟨os, .operand hop rfl h, h4⟩
          · rintro (⟨os, ss, h, h3, h4, h5⟩ | ⟨os, h, h4⟩)
            · cases h with
              | stop => exact absurd rfl h2
              | opts h _ => exact absurd (gives_isOption h) hi
              | @operand _ _ _ ss _ _ h => exact .inl ⟨os, ss, h, h3, h4, by simpa using h5⟩
              | first _ h => cases h
            · cases h with
              | here h => exact absurd (ends_isOption h) hi
              | opts h _ _ => exact absurd (gives_isOption h) hi
              | operand _ _ h => exact .inr ⟨os, h, h4⟩

theorem selects_iff {o : Opts} {os : List CmdOpt} {ss : List (List Nat)} :
    Selects o os ss ↔ o = argsInfo os ss := by
  constructor
  · intro h
    have key : ∀ {b : Bool} {x : CmdOpt}, (b = true ↔ x ∈ os) → b = os.contains x := by
      intro b x h
      rw [Bool.eq_iff_iff, h, List.contains_iff_mem]
    cases o
    unfold argsInfo
    rw [Opts.mk.injEq]
    exact ⟨key h.version, key h.help, key h.decode, key h.register, key h.tr46t, key h.tr46nt,
      key h.noTr46, key h.std3, key h.noRoundtrip, key h.debug, key h.quiet, h.inputs⟩
  · rintro rfl
    constructor <;> simp [argsInfo]

theorem reads_mono {N N' : List Nat → CmdOpt → Prop} {posix : Bool} {args : List (List Nat)}
    {os : List CmdOpt} {ss : List (List Nat)}
    (hN : ∀ n o, str "--" ++ n ∈ args → N n o → N' n o)
    (h : Reads N posix args os ss) : Reads N' posix args os ss := by
  induction h with
  | nil => exact .nil
  | stop => exact .stop
  | opts h _ ih =>
    refine .opts ?_ (ih fun n o hm => hN n o (List.mem_cons_of_mem _ hm))
    cases h with
    | long h => exact .long (hN _ _ (by simp) h)
    | short h => exact .short h
  | operand h hp _ ih => exact .operand h hp (ih fun n o hm => hN n o (List.mem_cons_of_mem _ hm))
  | first h hp => exact .first h hp

theorem halts_mono {N N' : List Nat → CmdOpt → Prop} {posix : Bool} {args : List (List Nat)}
    {os : List CmdOpt} (hN : ∀ n o, str "--" ++ n ∈ args → N n o → N' n o)
    (h : Halts N posix args os) : Halts N' posix args os := by
  induction h with
  | here h =>
    refine .here ?_
    cases h with
    | long h hf => exact .long (hN _ _ (by simp) h) hf
    | short h1 h2 h3 h4 => exact .short h1 h2 h3 h4
  | opts h hf _ ih =>
    refine .opts ?_ hf (ih fun n o hm => hN n o (List.mem_cons_of_mem _ hm))
    cases h with
    | long h => exact .long (hN _ _ (by simp) h)
    | short h => exact .short h
  | operand h hp _ ih => exact .operand h hp (ih fun n o hm => hN n o (List.mem_cons_of_mem _ hm))

/-! ### C103 -/

/-- C103, exactly: the parser accepts a command line if it can be read as options, each at most once,
and strings, or if it can be read so up to --help or --version.  "no-", "no" and "n" are taken for
"no-tr46". -/
theorem C103_outcome {posix : Bool} {args : List (List Nat)} {o : Opts} :
    cmdline_parser posix args = some o ↔
      (∃ os ss, Reads Taken posix args os ss ∧ (∀ x ∈ os, ¬ Final x) ∧ os.Nodup ∧ Selects o os ss) ∨
      ∃ os, Halts Taken posix args os ∧ os.Nodup ∧ Selects o os [] := by
  unfold cmdline_parser
  rw [cmdLoop_iff (given := []) .nil]
  unfold Outcome
  simp only [List.nil_append, selects_iff]

/-- C103: a command line is read as documented, names being abbreviated as far as that is
unambiguous. -/
theorem C103_reads {posix : Bool} {args : List (List Nat)} {os : List CmdOpt} {ss : List (List Nat)}
    (h : Reads Names posix args os ss) (hf : ∀ x ∈ os, ¬ Final x) (hd : os.Nodup) :
    ∃ o, cmdline_parser posix args = some o ∧ Selects o os ss :=
  ⟨argsInfo os ss, C103_outcome.mpr (.inl ⟨os, ss, reads_mono (fun _ _ _ h => .inl h) h, hf, hd,
    selects_iff.mpr rfl⟩), selects_iff.mpr rfl⟩

/-- With --help or --version, what is behind that does not matter. -/
theorem C103_halts {posix : Bool} {args : List (List Nat)} {os : List CmdOpt}
    (h : Halts Names posix args os) (hd : os.Nodup) :
    ∃ o, cmdline_parser posix args = some o ∧ Selects o os [] :=
  ⟨argsInfo os [], C103_outcome.mpr (.inr ⟨os, halts_mono (fun _ _ _ h => .inl h) h, hd,
    selects_iff.mpr rfl⟩), selects_iff.mpr rfl⟩

/-- C103, the converse, unless one of the arguments is "--n", "--no" or "--no-": nothing else is
accepted. -/
theorem C103_only_partial {posix : Bool} {args : List (List Nat)} {o : Opts}
    (hn : str "--n" ∉ args ∧ str "--no" ∉ args ∧ str "--no-" ∉ args)
    (h : cmdline_parser posix args = some o) :
    (∃ os ss, Reads Names posix args os ss ∧ (∀ x ∈ os, ¬ Final x) ∧ os.Nodup ∧ Selects o os ss) ∨
    ∃ os, Halts Names posix args os ∧ os.Nodup ∧ Selects o os [] := by
  have hN : ∀ n o, str "--" ++ n ∈ args → Taken n o → Names n o := by
    rintro n o hm (h | ⟨h, _⟩)
    · exact h
    · rcases h with rfl | rfl | rfl
      · exact absurd hm hn.1
      · exact absurd hm hn.2.1
      · exact absurd hm hn.2.2
  rcases C103_outcome.mp h with ⟨os, ss, h, h'⟩ | ⟨os, h, h'⟩
  · exact .inl ⟨os, ss, reads_mono hN h, h'⟩
  · exact .inr ⟨os, halts_mono hN h, h'⟩

/-- "--no" is an abbreviation of two options, but it is accepted. -/
theorem C103_violated : ∃ o, cmdline_parser false [str "--no"] = some o ∧ o.noTr46 = true ∧
    o.noRoundtrip = false ∧ str "no" <+: optName .noTr46 ∧ str "no" <+: optName .noRoundtrip ∧
    ∀ x, ¬ Names (str "no") x := by
  refine ⟨_, rfl, rfl, rfl, by decide, by decide, ?_⟩
  rintro x (h | ⟨_, _, h⟩)
  · cases x <;> exact absurd h (by decide)
  · have h1 := h .noTr46 (by decide)
    have h2 := h .noRoundtrip (by decide)
    rw [← h1] at h2
    cases h2

/-- The order of the options, and their place among the strings, do not matter. -/
theorem C103_order {args args' : List (List Nat)} {os os' : List CmdOpt} {ss : List (List Nat)}
    (h : Reads Names false args os ss) (h' : Reads Names false args' os' ss) (hp : os.Perm os')
    (hf : ∀ x ∈ os, ¬ Final x) (hd : os.Nodup) :
    cmdline_parser false args' = cmdline_parser false args ∧ cmdline_parser false args ≠ none := by
  obtain ⟨o, h1, h2⟩ := C103_reads h hf hd
  obtain ⟨o', h1', h2'⟩ := C103_reads h' (fun x hx => hf x (hp.mem_iff.mpr hx)) (hp.nodup hd)
  have e : o' = o := by
    rw [selects_iff.mp h2, selects_iff.mp h2']
    have key : ∀ x : CmdOpt, os'.contains x = os.contains x := fun x => by
      rw [Bool.eq_iff_iff, List.contains_iff_mem, List.contains_iff_mem, hp.mem_iff]
    unfold argsInfo
    simp only [key]
  rw [h1, h1', e]
  exact ⟨rfl, by simp⟩

theorem reads_dashes {N : List Nat → CmdOpt → Prop} {args : List (List Nat)} {os : List CmdOpt}
    {ss ss' : List (List Nat)} (h : Reads N false args os ss) (hn : str "--" ∉ args) :
    Reads N false (args ++ str "--" :: ss') os (ss ++ ss') := by
  generalize hp : false = posix at h
  induction h with
  | nil => subst hp; exact .stop
  | stop => simp at hn
  | opts h _ ih => exact .opts h (ih (fun hm => hn (by simp [hm])))
  | operand h hp' _ ih => exact .operand h hp' (ih (fun hm => hn (by simp [hm])))
  | first _ h => subst hp; cases h

/-- "To process a string that starts with `-', for example `-foo', use `--'": any strings can be
given behind "--". -/
theorem C103_dashes {args : List (List Nat)} {os : List CmdOpt} {ss : List (List Nat)}
    (h : Reads Names false args os ss) (hn : str "--" ∉ args) (hf : ∀ x ∈ os, ¬ Final x)
    (hd : os.Nodup) (ss' : List (List Nat)) :
    ∃ o, cmdline_parser false (args ++ str "--" :: ss') = some o ∧ Selects o os (ss ++ ss') :=
  C103_reads (reads_dashes h hn) hf hd

/-- What the tool does with a command line: the run of C57 for the options and strings read. -/
theorem C103_session {E : Env} {D : Data} (W : World E D) (L : E.U.Locale) {posix : Bool}
    {args : List (List Nat)} {os : List CmdOpt} {ss : List (List Nat)} (S : Surround)
    (h : Reads Names posix args os ss) (hf : ∀ x ∈ os, ¬ Final x) (hd : os.Nodup)
    (h0 : ∀ a ∈ ss, 0 ∉ a) :
    ∃ o ts x, Selects o os ss ∧ Texts o S ts ∧ (idn2Main E posix args S : Out _) = .val x ∧
      Session D E.U o S False ts x := by
  obtain ⟨o, h1, h2⟩ := C103_reads h hf hd
  obtain ⟨ts, ht, _⟩ := C57_texts o S
  have hv : o.version = false := by
    cases hv : o.version
    · rfl
    · exact absurd (.inr rfl) (hf _ (h2.version.mp hv))
  have hh : o.help = false := by
    cases hh : o.help
    · rfl
    · exact absurd (.inl rfl) (hf _ (h2.help.mp hh))
  obtain ⟨x, hx, hs⟩ := C57_session W L (S := S) hv hh (by rw [h2.inputs]; exact h0) ht
  refine ⟨o, ts, x, h2, ht, ?_, hs⟩
  unfold idn2Main
  rw [h1]
  exact hx

/-- A command line that is refused: nothing is printed, and the status is 1. -/
theorem C103_refused {E : Env} {posix : Bool} {args : List (List Nat)} (S : Surround)
    (hn : ∀ os ss, Reads Taken posix args os ss → (∀ x ∈ os, ¬ Final x) → ¬ os.Nodup)
    (hh : ∀ os, Halts Taken posix args os → ¬ os.Nodup) :
    (idn2Main E posix args S : Out _) = .val ⟨⟨[], []⟩, 1⟩ := by
  have : cmdline_parser posix args = none := by
    cases h : cmdline_parser posix args with
    | none => rfl
    | some o =>
      rcases C103_outcome.mp h with ⟨os, ss, h1, h2, h3, _⟩ | ⟨os, h1, h2, _⟩
      · exact absurd h3 (hn os ss h1 h2)
      · exact absurd h2 (hh os h1)
  unfold idn2Main
  rw [this]
  rfl

/-! ### Examples -/

/-- idn2 -rT a --us - -- --no -/
example : cmdline_parser false [str "-rT", str "a", str "--us", str "-", str "--", str "--no"] =
    some { register := true, tr46t := true, std3 := true, inputs := [str "a", str "-", str "--no"] } := by
  decide +kernel

example : cmdline_parser true [str "-d", str "a", str "--us"] =
    some { decode := true, inputs := [str "a", str "--us"] } := by decide +kernel

/-- Twice the same option, an ambiguous abbreviation, an unknown letter, an argument of an option. -/
example : cmdline_parser false [str "-d", str "--decode"] = none ∧
    cmdline_parser false [str "--de"] = none ∧ cmdline_parser false [str "--tr46"] = none ∧
    cmdline_parser false [str "-dx"] = none ∧ cmdline_parser false [str "--quiet=1"] = none ∧
    cmdline_parser false [str "-x", str "--help"] = none ∧
    cmdline_parser false [str "-dhx", str "-x"] = some { decode := true, help := true } := by
  decide +kernel

example : Reads Names false [str "--tr46n", str "ab", str "-rd"] [.tr46nt, .register, .decode] [str "ab"] :=
  .opts (.long (.inr ⟨by decide, by decide, by intro o; cases o <;> decide⟩))
    (.operand (.inl (by decide)) rfl (.opts (.short (.cons rfl (.cons rfl .nil))) .nil))

/-- idn2 --quiet --no-t -- ä --no -/
example : (idn2Main latinEnv false [str "--quiet", str "--no-t", str "--", [0xE4], str "--no"] {} : Out _) =
    .val ⟨⟨[0x78, 0x6E, 0x2D, 0x2D, 0x34, 0x63, 0x61, 0x0A, 0x2D, 0x2D, 0x6E, 0x6F, 0x0A], []⟩, 0⟩ := by
  decide +kernel

/-- The example in the text of --help is read as described there; but the string is refused, because
UTS #46 does not allow a label to begin with a hyphen. -/
theorem C103_foo : (idn2Main latinEnv false [str "--quiet", str "--", str "-foo"] {} : Out _) =
    .val ⟨⟨[], [.fail "toAscii" (idn2_strerror Rc.hyphenStartEnd.code)]⟩, 1⟩ := by
  decide +kernel

end Idn2
