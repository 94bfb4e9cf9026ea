import Verif.Proof.Cli

/-
Properties C56-C61: the command line tool.
-/

namespace Idn2
open Spec

/-! ### Examples: two locales -/

/-- The sample environment in a UTF-8 locale. -/
def utf8Env : Env := ⟨Sample.T, { Sample.U with
  fromLocale := fun s => if (u8Decode s).isSome = true ∧ 0 ∉ s then some s else none
  toLocale := fun s => if 0 ∈ s then none else some s }⟩

/-- The sample environment in a Latin-1 locale. -/
def latinEnv : Env := ⟨Sample.T, { Sample.U with
  fromLocale := fun s => if ∀ c ∈ s, 0 < c ∧ c < 256 then some (utf8s s) else none
  toLocale := fun s => match u8Decode s with
    | some u => if ∀ c ∈ u, 0 < c ∧ c < 256 then some u else none
    | none => none }⟩

theorem utf8Env_world : World utf8Env Sample.D :=
  let L := Sample.uni_laws
  ⟨Sample.implements, ⟨L.nfc_ascii, L.nfc_idem, L.nfc_sep, L.nfc_nosep, L.nfc_scalar⟩, Sample.laws⟩

theorem latinEnv_world : World latinEnv Sample.D :=
  let L := Sample.uni_laws
  ⟨Sample.implements, ⟨L.nfc_ascii, L.nfc_idem, L.nfc_sep, L.nfc_nosep, L.nfc_scalar⟩, Sample.laws⟩

theorem utf8Env_locale : utf8Env.U.Locale := by
  constructor
  · intro s t h
    unfold utf8Env at h
    simp only at h
    split at h
    · rename_i hc
      injection h with h
      subst h
      obtain ⟨u, hu⟩ := Option.isSome_iff_exists.mp hc.1
      exact ⟨wellFormed_iff.mpr ⟨u, hu⟩, hc.2⟩
    · cases h
  · intro s t h
    unfold utf8Env at h
    simp only at h
    split at h
    · cases h
    · rename_i hc
      injection h with h
      subst h
      exact hc

theorem latinEnv_locale : latinEnv.U.Locale := by
  constructor
  · intro s t h
    unfold latinEnv at h
    simp only at h
    split at h
    · rename_i hc
      injection h with h
      subst h
      refine ⟨⟨s, fun c hm => ?_, rfl⟩, zero_mem_utf8s fun h0 => ?_⟩
      · have := (hc c hm).2
        unfold isScalar
        omega
      · have := (hc 0 h0).1
        omega
    · cases h
  · intro s t h
    unfold latinEnv at h
    simp only at h
    split at h
    · split at h
      · rename_i hc
        injection h with h
        subst h
        intro h0
        have := (hc 0 h0).1
        omega
      · cases h
    · cases h

/-! ### C56 -/

/-- C56.  The options say which flags are used; the library always takes them. -/
theorem C56_flags (o : Opts) :
    ((cliFlags o ||| IDN2_NFC_INPUT).testBit 0 = true ∧
      (cliFlags o ||| IDN2_NFC_INPUT).testBit 1 = false ∧
      (cliFlags o ||| IDN2_NFC_INPUT).testBit 2 = o.tr46t ∧
      (cliFlags o ||| IDN2_NFC_INPUT).testBit 3 = (!o.tr46t && (o.tr46nt || !o.noTr46)) ∧
      (cliFlags o ||| IDN2_NFC_INPUT).testBit 4 = false ∧
      (cliFlags o ||| IDN2_NFC_INPUT).testBit 5 = o.std3 ∧
      (cliFlags o ||| IDN2_NFC_INPUT).testBit 6 = (o.noTr46 && !o.tr46t && !o.tr46nt) ∧
      (cliFlags o ||| IDN2_NFC_INPUT).testBit 7 = o.noRoundtrip ∧
      cliFlags o ||| IDN2_NFC_INPUT < 256) ∧
    ∀ {E : Env} {D : Data}, World E D → ∀ {s : List Nat}, 0 ∉ s →
      ¬ LookupErr E (cliFlags o ||| IDN2_NFC_INPUT) s .invalidFlags := by
  constructor
  · have h : ∀ a b c d e : Bool,
        let f := cliFlags { tr46t := a, tr46nt := b, noTr46 := c, std3 := d, noRoundtrip := e } |||
          IDN2_NFC_INPUT
        f.testBit 0 = true ∧ f.testBit 1 = false ∧ f.testBit 2 = a ∧
          f.testBit 3 = (!a && (b || !c)) ∧ f.testBit 4 = false ∧ f.testBit 5 = d ∧
          f.testBit 6 = (c && !a && !b) ∧ f.testBit 7 = e ∧ f < 256 := by decide
    exact h o.tr46t o.tr46nt o.noTr46 o.std3 o.noRoundtrip
  · intro E D W s h0
    rw [C13_invalid_flags W _ h0, show cliFlags o ||| IDN2_NFC_INPUT = toolFlags o from cliFlags_eq o]
    exact (toolFlags_ok o).1

example : cliFlags {} = 8 ∧ cliFlags { tr46t := true, tr46nt := true, std3 := true } = 0x24 ∧
    cliFlags { noTr46 := true, noRoundtrip := true } = 0xC0 := by decide

/-! ### C57 -/

/-- C57.  Every run is about exactly one list of strings. -/
theorem C57_texts (o : Opts) (S : Surround) :
    ∃ ts, Texts o S ts ∧ ∀ us, Texts o S us → us = ts := by
  unfold Texts
  by_cases hi : o.inputs = []
  · simp only [if_pos hi]
    obtain ⟨ls, h⟩ := lines_exists S.stdin
    refine ⟨_, ⟨ls, h, rfl⟩, ?_⟩
    rintro _ ⟨ls', h', rfl⟩
    rw [lines_unique h h']
  · simp only [if_neg hi]
    obtain ⟨ts, h⟩ := each_noNewline o.inputs
    exact ⟨ts, h, fun us hu => each_noNewline_unique hu h⟩

/-- C57.  A run prints the results for its strings in order, one per line, up to the first string
that is refused. -/
theorem C57_session {E : Env} {D : Data} (W : World E D) (L : E.U.Locale) {o : Opts} {S : Surround}
    (hv : o.version = false) (hh : o.help = false) (h0 : ∀ a ∈ o.inputs, 0 ∉ a)
    {ts : List (List Nat)} (ht : Texts o S ts) :
    ∃ x, (cliMain E o S : Out _) = .val x ∧ Session D E.U o S False ts x :=
  main_out W L hv hh h0 ht

/-- What is printed for a string is determined. -/
theorem prints_unique {E : Env} {D : Data} (W : World E D) (L : E.U.Locale) {o : Opts} {S : Surround}
    {s n n' : List Nat} (h : Prints D E.U o S s n) (h' : Prints D E.U o S s n') : n = n' := by
  by_cases h1 : s = showW
  · rcases h with h | h | ⟨_, h, _, _⟩
    · rcases h' with h' | h' | ⟨_, h', _, _⟩
      · rfl
      · rw [h] at h'; cases h'
      · exact absurd h h'
    · rw [h] at h1; cases h1
    · exact absurd h1 h
  · by_cases h2 : s = showC
    · rcases h with h | h | ⟨_, _, h, _⟩
      · exact absurd h h1
      · rcases h' with h' | h' | ⟨_, _, h', _⟩
        · exact absurd h' h1
        · rfl
        · exact absurd h h'
      · exact absurd h2 h
    · have e := (convP_ok_iff W L (cliFlags_eq o)).mpr ((prints_iff h1 h2).mp h)
      rw [(convP_ok_iff W L (cliFlags_eq o)).mpr ((prints_iff h1 h2).mp h')] at e
      injection e with e
      exact e.symm

/-- C57.  The exit status is 0 if and only if every string has a result (and standard input could
be read); then the output consists of these results. -/
theorem C57_status {E : Env} {D : Data} (W : World E D) (L : E.U.Locale) {o : Opts} {S : Surround}
    (hv : o.version = false) (hh : o.help = false) (h0 : ∀ a ∈ o.inputs, 0 ∉ a)
    {ts : List (List Nat)} (ht : Texts o S ts) {x : Exit} (hx : (cliMain E o S : Out _) = .val x) :
    (x.status = 0 ↔ (∀ t ∈ ts, ∃ n, Prints D E.U o S t n) ∧
      ¬ (o.inputs = [] ∧ S.readError = true)) ∧
    ∀ ns, Each (Prints D E.U o S) ts ns → x.io.out = ns.flatMap (· ++ [0x0A]) := by
  obtain ⟨y, hy, done, rest, ns, ds, rfl, h2, h3, _, _, h6⟩ := C57_session W L hv hh h0 ht
  rw [hy] at hx
  injection hx with hx
  subst hx
  have hall : ∀ {done ns : List (List Nat)}, Each (Prints D E.U o S) done ns →
      ∀ t ∈ done, ∃ n, Prints D E.U o S t n := by
    intro done ns h
    induction h with
    | nil => simp
    | cons h _ ih =>
      intro t ht
      rcases List.mem_cons.mp ht with rfl | ht
      · exact ⟨_, h⟩
      · exact ih t ht
  have huniq : ∀ {done ns ms : List (List Nat)}, Each (Prints D E.U o S) done ns →
      Each (Prints D E.U o S) done ms → ns = ms := by
    intro done ns ms h
    induction h generalizing ms with
    | nil => intro g; cases g; rfl
    | cons h _ ih =>
      intro g
      cases g with
      | cons g1 g2 => rw [prints_unique W L h g1, ih g2]
  rcases h6 with ⟨rfl, _, k3⟩ | ⟨t, post, e, rfl, k2, _, k4⟩
  · rw [List.append_nil]
    refine ⟨?_, fun ms hm => by rw [h3, huniq h2 hm]⟩
    rw [k3]
    by_cases hr : o.inputs = [] ∧ S.readError = true
    · rw [if_pos hr]
      simp [hr]
    · rw [if_neg hr]
      exact ⟨fun _ => ⟨hall h2, hr⟩, fun _ => rfl⟩
  · rcases k4 with ⟨_, k4⟩ | ⟨k4, _⟩
    · constructor
      · rw [k2]
        constructor
        · intro h; cases h
        · rintro ⟨h, _⟩
          obtain ⟨n, hn⟩ := h t (by simp)
          exact absurd hn (k4 n)
      · intro ms hm
        obtain ⟨n, hn⟩ := hall hm t (by simp)
        exact absurd hn (k4 n)
    · exact k4.elim

/-- C57.  --version and --help print their text only; --version goes before --help. -/
theorem C57_version_help (E : Env) (o : Opts) (S : Surround) :
    (o.version = true → (cliMain E o S : Out _) = .val ⟨⟨S.versionText, []⟩, 0⟩) ∧
    (o.version = false → o.help = true →
      (cliMain E o S : Out _) = .val ⟨⟨S.usageText, []⟩, 0⟩) := by
  unfold cliMain
  exact ⟨fun h => by rw [h]; rfl, fun h1 h2 => by rw [h1, h2]; rfl⟩


/-- Three arguments, the second of which is "ä" followed by a newline. -/
example : (cliMain latinEnv { inputs := [[0x61], [0xE4, 0x0A], [0x78, 0x6E, 0x2D, 0x2D]] } {} : Out _) =
    .val ⟨⟨[0x61, 0x0A, 0x78, 0x6E, 0x2D, 0x2D, 0x34, 0x63, 0x61, 0x0A],
      [.fail "toAscii" (idn2_strerror (-202))]⟩, 1⟩ := by
  decide +kernel

/-- Two lines; the second one has a NUL and no newline. -/
example : (cliMain utf8Env { decode := true }
      { stdin := [0x78, 0x6E, 0x2D, 0x2D, 0x34, 0x63, 0x61, 0x0A, 0x62, 0, 0xFF], tty := true } : Out _) =
    .val ⟨⟨[0xC3, 0xA4, 0x0A, 0x62, 0x0A], [.greeting, .instructions]⟩, 0⟩ := by
  decide +kernel

/-- The account of C57 applied to a run. -/
example : ∃ n, Prints Sample.D latinEnv.U {} {} [0xE4] n := by
  have h := C57_status latinEnv_world latinEnv_locale (o := { inputs := [[0xE4]] }) (S := {})
    (x := ⟨⟨[0x78, 0x6E, 0x2D, 0x2D, 0x34, 0x63, 0x61, 0x0A], []⟩, 0⟩) rfl rfl (by decide)
    (ts := [[0xE4]]) (by
      unfold Texts
      rw [if_neg (by simp)]
      exact .cons (Or.inr ⟨rfl, by decide⟩) .nil) (by decide +kernel)
  obtain ⟨n, hn⟩ := (h.1.mp rfl).1 [0xE4] (by simp)
  refine ⟨n, ?_⟩
  rcases hn with h | h | ⟨_, h1, h2, h3⟩
  · cases h
  · cases h
  · refine .converted n h1 h2 ?_
    rw [← convP_ok_iff latinEnv_world latinEnv_locale (cliFlags_eq _)] at h3 ⊢
    exact h3

/-! ### C58 -/

/-- The messages other than the greeting. -/
def Spec.reports (d : List Diag) : List Diag :=
  d.filter fun x => x != .greeting && x != .instructions

theorem reports_append (a b : List Diag) : reports (a ++ b) = reports a ++ reports b :=
  List.filter_append ..

theorem process_nfc (E : Env) (o : Opts) (S : Surround) (buf : List Nat) (flags : Nat) :
    (process_input E o S buf (flags ||| 1) : Out _) = process_input E o S buf flags := by
  have h : ∀ s, (convert E o s (flags ||| 1) : Out _) = convert E o s flags := by
    intro s
    unfold convert idn2_register_ul idn2_to_ascii_lz idn2_lookup_ul
    simp only [show IDN2_NFC_INPUT = 1 from rfl, Nat.or_assoc, Nat.or_self]
  unfold process_input processText
  simp only [h]

theorem process_line (E : Env) (o o' : Opts) (S S' : Surround) {l : List Nat} (h0 : 0 ∉ l)
    (hn : 0x0A ∉ l) (ho : o' = { o with inputs := o'.inputs })
    (hS : S'.warranty = S.warranty ∧ S'.conditions = S.conditions) (flags : Nat) :
    (process_input E o S (l ++ [0x0A]) flags : Out _) = process_input E o' S' l (flags ||| 1) := by
  rw [process_nfc]
  unfold process_input
  rw [cstr_takeWhile, cstr_takeWhile, takeWhile_all h0, takeWhile_all (by simp [h0])]
  simp only
  rw [chop_eq (Or.inl rfl : NoNewline (l ++ [0x0A]) l), chop_eq (noNewline_self hn), hS.1, hS.2, ho]
  rfl

theorem loops_agree {E : Env} {D : Data} (W : World E D) (L : E.U.Locale) {o o' : Opts}
    {S S' : Surround} (ho : o' = { o with inputs := o'.inputs })
    (hS : S'.warranty = S.warranty ∧ S'.conditions = S.conditions) (bp : Nat)
    {ls : List (List Nat)} (hl : ∀ l ∈ ls, 0 ∉ l ∧ 0x0A ∉ l) {io io' : Io}
    (h1 : io.out = io'.out) (h2 : reports io.err = reports io'.err) :
    ∃ r r', (lineLoop E o S (cliFlags o) bp (ls.flatMap (· ++ [0x0A])) io : Out _) = .val r ∧
      (argLoop E o' S' (cliFlags o') ls io' : Out _) = .val r' ∧ r.2 = r'.2 ∧
      r.1.out = r'.1.out ∧ reports r.1.err = reports r'.1.err := by
  induction ls generalizing io io' with
  | nil =>
    refine ⟨(io, true), (io', true), ?_, rfl, rfl, h1, h2⟩
    rw [lineLoop.eq_def]
    rfl
  | cons l ls ih =>
    obtain ⟨h0, hn⟩ := hl l (by simp)
    have hg : getline ((l :: ls).flatMap (· ++ [0x0A])) = (l ++ [0x0A], ls.flatMap (· ++ [0x0A])) := by
      rw [List.flatMap_cons, List.append_assoc]
      exact getline_cons hn
    rw [lineLoop.eq_def, dif_pos (by rw [hg]; simp), hg]
    unfold argLoop
    obtain ⟨⟨d, go⟩, hp, _⟩ := process_out W L S (cliFlags_eq o) (l ++ [0x0A])
    have hp' := process_line E o o' S S' h0 hn ho hS (cliFlags o)
    rw [hp] at hp'
    have hf : cliFlags o' = cliFlags o := by rw [ho]; rfl
    have hp'' : (process_input E o' S' l (cliFlags o' ||| IDN2_NFC_INPUT) : Out _) = .val (d, go) := by
      rw [hf]; exact hp'.symm
    rw [hp'', Out.bind_val]
    simp only [Out.touch_eq, Out.bind_val, hp]
    have h1' : (io.app d).out = (io'.app d).out := by simp [Io.app, h1]
    have h2' : reports (io.app d).err = reports (io'.app d).err := by
      simp [Io.app, reports_append, h2]
    cases go with
    | false => exact ⟨_, _, rfl, rfl, rfl, h1', h2'⟩
    | true => exact ih (fun l hm => hl l (by simp [hm])) h1' h2'

/-- C58.  Strings on standard input, one per line, give the same as arguments. -/
theorem C58_stdin_args {E : Env} {D : Data} (W : World E D) (L : E.U.Locale) {o : Opts}
    {S S' : Surround} (hS : S'.warranty = S.warranty ∧ S'.conditions = S.conditions ∧
      S'.versionText = S.versionText ∧ S'.usageText = S.usageText)
    (hi : o.inputs = []) {ls : List (List Nat)} (hne : ls ≠ [])
    (hl : ∀ l ∈ ls, 0 ∉ l ∧ 0x0A ∉ l) (hs : S.stdin = ls.flatMap (· ++ [0x0A]))
    (hr : S.readError = false) :
    ∃ x y, (cliMain E o S : Out _) = .val x ∧
      (cliMain E { o with inputs := ls } S' : Out _) = .val y ∧
      x.status = y.status ∧ x.io.out = y.io.out ∧ reports x.io.err = reports y.io.err := by
  by_cases hv : o.version = true
  · exact ⟨_, _, (C57_version_help E o S).1 hv, (C57_version_help E { o with inputs := ls } S').1 hv,
      rfl, hS.2.2.1.symm, rfl⟩
  replace hv : o.version = false := by simpa using hv
  by_cases hh : o.help = true
  · exact ⟨_, _, (C57_version_help E o S).2 hv hh,
      (C57_version_help E { o with inputs := ls } S').2 hv hh, rfl, hS.2.2.2.symm, rfl⟩
  replace hh : o.help = false := by simpa using hh
  have hop : reports (opening o S) = reports (opening { o with inputs := ls } S') := by
    unfold opening
    rw [reports_append, reports_append, reports_append, reports_append]
    have h : ∀ (c : Bool), reports (if c then [Diag.greeting] else []) = [] ∧
        reports (if c then [Diag.instructions] else []) = [] := by
      intro c; cases c <;> exact ⟨rfl, rfl⟩
    rw [(h _).1, (h _).2, (h _).1, (h _).2]
  obtain ⟨⟨io, go⟩, ⟨io', go'⟩, h1, h2, h3, h4, h5⟩ := loops_agree W L (o := o)
    (o' := { o with inputs := ls }) (S := S) (S' := S') rfl ⟨hS.1, hS.2.1⟩ 0 hl
    (io := ⟨[], opening o S⟩) (io' := ⟨[], opening { o with inputs := ls } S'⟩) rfl hop
  simp only at h3 h4 h5
  subst h3
  have hy : (cliMain E { o with inputs := ls } S' : Out _) = .val ⟨io', if go then 0 else 1⟩ := by
    rw [cliMain_args (o := { o with inputs := ls }) hv hh hne, h2, Out.bind_val]
    cases go <;> rfl
  have hread : (readLoop E o S (cliFlags o) ⟨[], opening o S⟩ : Out _) = .val (io, go) := by
    unfold readLoop
    show (Out.val (some 0)) >>= _ = _
    rw [Out.bind_val]
    simp only
    rw [hs, h1, Out.bind_val]
    cases go <;> rfl
  have hx : (cliMain E o S : Out _) = .val ⟨io, if go then 0 else 1⟩ := by
    unfold cliMain
    rw [hv, hh, hi]
    simp only [Bool.false_eq_true, ↓reduceIte, argLoop, List.length_nil]
    show (Out.val _) >>= _ = _
    rw [Out.bind_val]
    simp only [Bool.not_true, Bool.false_eq_true, ↓reduceIte]
    rw [hread, Out.bind_val, hr]
    cases go <;> rfl
  exact ⟨_, _, hx, hy, rfl, h4, h5⟩

example : (cliMain latinEnv {} { stdin := [0xE4, 0x0A, 0xE4, 0x62, 0x0A] } : Out _) =
      .val ⟨⟨[0x78, 0x6E, 0x2D, 0x2D, 0x34, 0x63, 0x61, 0x0A,
        0x78, 0x6E, 0x2D, 0x2D, 0x62, 0x2D, 0x7A, 0x66, 0x61, 0x0A], []⟩, 0⟩ ∧
    (cliMain latinEnv { inputs := [[0xE4], [0xE4, 0x62]] } {} : Out _) =
      (cliMain latinEnv {} { stdin := [0xE4, 0x0A, 0xE4, 0x62, 0x0A] } : Out _) := by
  decide +kernel

/-! ### C59, C60 -/

theorem session_mono {D : Data} {U : Uni} {o : Opts} {S : Surround} {p q : Prop} (h : p → q)
    {ts : List (List Nat)} {x : Exit} (hs : Session D U o S p ts x) : Session D U o S q ts x := by
  obtain ⟨done, rest, ns, ds, h1, h2, h3, h4, h5, h6⟩ := hs
  refine ⟨done, rest, ns, ds, h1, h2, h3, h4, h5, ?_⟩
  rcases h6 with h6 | ⟨t, post, e, k1, k2, k3, k4⟩
  · exact Or.inl h6
  · exact Or.inr ⟨t, post, e, k1, k2, k3, k4.imp_right fun k => ⟨h k.1, k.2⟩⟩

/-- C59.  Whatever allocations fail, a run has no undefined behaviour and does not touch the blocks
of others; if none fails, or it gets that far, it behaves as in C57, and otherwise it ends
with an error report or, if the line buffer cannot be allocated, as if there were no input. -/
theorem C59_memory {E : Env} {D : Data} (W : World E D) (L : E.U.Locale) {o : Opts} {S : Surround}
    (hv : o.version = false) (hh : o.help = false) (h0 : ∀ a ∈ o.inputs, 0 ∉ a)
    {ts : List (List Nat)} (ht : Texts o S ts) {h : Heap} (hok : h.Ok) :
    ∃ x h', (cliMain E o S : HeapM _) h = .val (x, h') ∧ h'.Ok ∧ h.live <:+ h'.live ∧
      (Session D E.U o S (Failed h h') ts x ∨
        (Failed h h' ∧ o.inputs = [] ∧ Session D E.U o S (Failed h h') [] x)) := by
  obtain ⟨x, h', F, e1, e2, ⟨e3, k, e4, _⟩, e5⟩ :=
    tri_window (fun F => tri_main W L hv hh h0 ht F h.live) hok rfl
  refine ⟨x, h', e1, e2, ⟨k, e4.symm⟩, ?_⟩
  rcases e3 with e3 | ⟨g1, g2, g3⟩
  · exact Or.inl (session_mono e5 e3)
  · exact Or.inr ⟨e5 g1, g2, session_mono e5 g3⟩

/-- C60.  Without --debug, a run that ends with status 0 has freed everything. -/
theorem C60_no_leak_partial {E : Env} {D : Data} (W : World E D) (L : E.U.Locale) {o : Opts}
    {S : Surround} (hv : o.version = false) (hh : o.help = false) (hd : o.debug = false)
    (h0 : ∀ a ∈ o.inputs, 0 ∉ a) {h h' : Heap} (hok : h.Ok) {x : Exit}
    (hx : (cliMain E o S : HeapM _) h = .val (x, h')) (hs : x.status = 0) : h'.live = h.live := by
  obtain ⟨ts, ht, _⟩ := C57_texts o S
  obtain ⟨y, h2, F, e1, e2, ⟨_, k, e4, e5⟩, _⟩ :=
    tri_window (fun F => tri_main W L hv hh h0 ht F h.live) hok rfl
  rw [hx] at e1
  injection e1 with e1
  injection e1 with ea eb
  subst ea eb
  rw [e4, e5 hd hs]
  rfl

/-- Status and number of live blocks at the end of `idn2 --debug -- a`. -/
def debugRun : Option (Nat × Nat) :=
  match (cliMain utf8Env { debug := true, inputs := [[0x61]] } {} : HeapM _)
      { live := [], count := 0, fails := fun _ => false } with
  | .val (x, h) => some (x.status, h.live.length)
  | .ub => none

/-- C60 is false with --debug: the conversions made for the dumps are not freed.  Here four blocks
are left for one argument. -/
theorem C60_debug_leaks : ∃ x h', (cliMain utf8Env { debug := true, inputs := [[0x61]] } {} : HeapM _)
      { live := [], count := 0, fails := fun _ => false } = .val (x, h') ∧ x.status = 0 ∧
      h'.live.length = 4 := by
  have h : debugRun = some (0, 4) := by decide +kernel
  unfold debugRun at h
  split at h
  · rename_i x h' hx
    injection h with h
    injection h with h1 h2
    exact ⟨x, h', hx, h1, h2⟩
  · cases h

/-- The line buffer cannot be allocated: nothing is printed and the status is 0. -/
example : ∃ h', (cliMain utf8Env {} { stdin := [0x61, 0x0A] } : HeapM _)
      { live := [], count := 0, fails := fun k => k == 0 } = .val (⟨⟨[], []⟩, 0⟩, h') :=
  ⟨_, rfl⟩

/-! ### C61 -/

/-- The bytes that are dumped under the heading `pre`. -/
def Spec.dumped (pre : String) (d : List Diag) : List Nat :=
  d.filterMap fun x => match x with
    | .byte p _ v => if p = pre then some v else none
    | _ => none

theorem dumped_append (pre : String) (a b : List Diag) :
    dumped pre (a ++ b) = dumped pre a ++ dumped pre b := List.filterMap_append ..

theorem dumped_none {pre : String} {d : List Diag} (h : ∀ x ∈ d, ∀ p i v, x ≠ .byte p i v) :
    dumped pre d = [] := by
  unfold dumped
  rw [List.filterMap_eq_nil_iff]
  intro x hx
  split
  · exact absurd rfl (h _ hx _ _ _)
  · rfl

theorem dumped_mapIdx {pre : String} {f : Nat → Nat → Diag} (h : ∀ i c p j v, f i c ≠ .byte p j v)
    (l : List Nat) : dumped pre (l.mapIdx f) = [] := by
  apply dumped_none
  intro x hx p i v he
  obtain ⟨j, _, hj⟩ := List.mem_mapIdx.mp hx
  exact h _ _ _ _ _ (hj.trans he)

theorem dumped_bytes (pre pre' : String) {s : List Nat} (hs : ∀ c ∈ s, c < 256) (k : Nat) :
    dumped pre (s.mapIdx fun i c => Diag.byte pre' (i + k) (c &&& 0xFF)) =
      if pre' = pre then s else [] := by
  induction s generalizing k with
  | nil => simp [dumped]
  | cons c r ih =>
    have hc : c &&& 255 = c := by
      have := hs c (by simp)
      rw [show (255 : Nat) = 2 ^ 8 - 1 from rfl, Nat.and_two_pow_sub_one_eq_mod]
      omega
    rw [List.mapIdx_cons]
    have ih' := ih (fun c hm => hs c (by simp [hm])) (k + 1)
    have e : (fun i c => Diag.byte pre' (i + 1 + k) (c &&& 0xFF)) =
        fun i c => Diag.byte pre' (i + (k + 1)) (c &&& 0xFF) := by
      funext i c
      rw [Nat.add_assoc, Nat.add_comm 1 k]
    rw [e]
    have hcons : ∀ d l, dumped pre (d :: l) = dumped pre [d] ++ dumped pre l :=
      fun d l => dumped_append pre [d] l
    rw [hcons, ih', hc]
    by_cases hp : pre' = pre <;> simp [dumped, hp]

theorem dumped_hexdump (E : Env) (pre pre' : String) {s : List Nat} (hs : ∀ c ∈ s, c < 256) :
    ∃ d, (hexdump E pre' s : Out _) = .val d ∧ dumped pre d = if pre' = pre then s else [] := by
  have hb := dumped_bytes pre pre' hs 0
  unfold hexdump libConv
  cases h : E.U.fromLocale s with
  | none => exact ⟨_, rfl, hb⟩
  | some u =>
    have ho : dumped pre (if s ≠ u then u.mapIdx fun i c => Diag.utf8 pre' i (c &&& 0xFF) else []) =
        [] := by
      split
      · exact dumped_mapIdx (by intros; simp) _
      · rfl
    cases h' : u8Decode u with
    | none =>
      refine ⟨_, by simp only [Out.malloc_eq, Out.bind_val, Out.pure_eq, Out.touch_eq, h']; rfl, ?_⟩
      rw [dumped_append, ho, List.append_nil]
      exact hb
    | some v =>
      refine ⟨_, by simp only [Out.malloc_eq, Out.bind_val, Out.pure_eq, Out.touch_eq, h']; rfl, ?_⟩
      rw [dumped_append, dumped_append, ho, List.append_nil,
        dumped_mapIdx (by intros; simp) v, List.append_nil]
      exact hb

/-- C61.  With --debug and one argument, the bytes dumped under "input" are those of the argument.
So are the bytes dumped under "output". -/
theorem C61_dumps_partial {E : Env} {D : Data} (W : World E D) (L : E.U.Locale) {o : Opts} {S : Surround}
    (hv : o.version = false) (hh : o.help = false) (hd : o.debug = true) {a : List Nat}
    (hi : o.inputs = [a]) (h0 : 0 ∉ a) (hn : 0x0A ∉ a) (hb : ∀ c ∈ a, c < 256)
    (hs : a ≠ [0x73, 0x68, 0x6F, 0x77, 0x20, 0x77] ∧ a ≠ [0x73, 0x68, 0x6F, 0x77, 0x20, 0x63])
    {x : Exit} (hx : (cliMain E o S : Out _) = .val x) :
    dumped "input" x.io.err = a ∧ (x.status = 0 → dumped "output" x.io.err = a) := by
  rw [cliMain_args hv hh (by rw [hi]; simp), hi] at hx
  have hop : ∀ pre, dumped pre (opening o S) = [] := by
    intro pre
    apply dumped_none
    intro y hy p i v he
    subst he
    unfold opening at hy
    rw [hi] at hy
    simp only [List.mem_append] at hy
    rcases hy with (hy | hy) | hy <;> (split at hy <;> simp at hy)
  have hfail : ∀ pre t m, dumped pre [Diag.fail t m] = [] := fun _ _ _ => rfl
  obtain ⟨d, hd1, _⟩ := hexdump_out E "input" a
  obtain ⟨d', hd1', _⟩ := hexdump_out E "output" a
  have hin : ∀ pre, dumped pre d = if "input" = pre then a else [] := by
    intro pre
    obtain ⟨e, h1, h2⟩ := dumped_hexdump E pre "input" hb
    rw [hd1] at h1
    injection h1 with h1
    rw [h1, h2]
  have hout : ∀ pre, dumped pre d' = if "output" = pre then a else [] := by
    intro pre
    obtain ⟨e, h1, h2⟩ := dumped_hexdump E pre "output" hb
    rw [hd1'] at h1
    injection h1 with h1
    rw [h1, h2]
  have e1 : ¬ "input" = "output" := by decide
  have e2 : ¬ "output" = "input" := by decide
  obtain ⟨hne, hc⟩ := convert_out W L o (cliFlags o ||| IDN2_NFC_INPUT) a
  unfold argLoop process_input processText debugDump at hx
  rw [cstr_takeWhile, takeWhile_all h0] at hx
  simp only [chop_eq (noNewline_self hn), if_neg (show ¬ a = showW from hs.1),
    if_neg (show ¬ a = showC from hs.2), hd, ↓reduceIte, hd1, hd1', Out.bind_val, hc] at hx
  cases hp : convP E D o (cliFlags o ||| IDN2_NFC_INPUT) a with
  | ub => exact absurd hp hne
  | err e =>
    rw [hp] at hx
    simp only [retOf, Out.bind_val, Out.pure_eq, Bool.false_eq_true, ↓reduceIte, Bool.not_false] at hx
    injection hx with hx
    subst hx
    constructor
    · simp [Io.app, dumped_append, hop, hin, hfail]
    · intro h; cases h
  | ok n =>
    rw [hp] at hx
    have hz := convP_zero W L (o := o) (or_one (cliFlags_eq o)) hp
    simp only [retOf, Out.bind_val, Option.map_some, Out.touch_eq, Out.free_eq,
      cstr_append hz, Out.pure_eq, ↓reduceIte, argLoop, Bool.not_true, Bool.false_eq_true] at hx
    injection hx with hx
    subst hx
    constructor
    · simp [Io.app, dumped_append, hop, hin, hout, e2]
    · intro _
      simp [Io.app, dumped_append, hop, hin, hout, e1]

/-- C61 is false: "ä" is converted to "xn--4ca", and the dump of the output shows "ä". -/
theorem C61_output_dump_wrong : ∃ x, (cliMain latinEnv { debug := true, inputs := [[0xE4]] } {} : Out _) =
      .val x ∧ x.status = 0 ∧ x.io.out = [0x78, 0x6E, 0x2D, 0x2D, 0x34, 0x63, 0x61, 0x0A] ∧
      dumped "output" x.io.err = [0xE4] := by
  obtain ⟨ts, ht, _⟩ := C57_texts { debug := true, inputs := [[0xE4]] } {}
  obtain ⟨x, hx, _⟩ := C57_session latinEnv_world latinEnv_locale
    (o := { debug := true, inputs := [[0xE4]] }) (S := {}) rfl rfl (by decide) ht
  have hd := C61_dumps_partial latinEnv_world latinEnv_locale
    (o := { debug := true, inputs := [[0xE4]] }) (S := {}) rfl rfl rfl rfl (by decide) (by decide)
    (by decide) (by decide) hx
  have hs : (match (cliMain latinEnv { debug := true, inputs := [[0xE4]] } {} : Out _) with
      | .val x => some (x.status, x.io.out)
      | .ub => none) = some (0, [0x78, 0x6E, 0x2D, 0x2D, 0x34, 0x63, 0x61, 0x0A]) := by decide +kernel
  rw [hx] at hs
  injection hs with hs
  injection hs with h1 h2
  exact ⟨x, hx, h1, h2, hd.2 h1⟩

end Idn2
